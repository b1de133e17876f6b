{"id": "C01", "title": "A complete calendar date denotes exactly that day", "statement": "Parsing 'YYYY-MM-DD' for a date that exists in the proleptic Gregorian calendar succeeds at level 0 with feature 'Date'; Lower() is 00:00:00 UTC of that day and Upper() is 23:59:59 UTC of that day, and both ends carry that year, month and day.", "quantifier": "every year 0000-9999 and every month/day that exists in it", "why_tests_cant": "3.65 million dates, each needing the regular expression, the digit arithmetic, the leap-year rule and the Unix conversion to agree; the tests sample three", "anchors": ["parser/parser.go:ParseString", "level0/date.go:ParseDate", "common/span.go:DateSpanFromEDTF", "common/ymd.go:YMDFromStrings", "common/time.go:TimeWithYMD"]}
{"id": "C02", "title": "A year-month denotes exactly the calendar month", "statement": "Parsing 'YYYY-MM' succeeds; Lower() is the first second of the month's first day and Upper() is the last second of its last day, leap years included.", "quantifier": "every year 0000-9999, every month 01-12", "why_tests_cant": "the last day of the month depends on the leap-year rule over 10000 years", "anchors": ["level0/date.go:ParseDate", "common/range.go:StringRangeFromYMD", "calendar/calendar.go:DaysInMonth"]}
{"id": "C03", "title": "A year denotes exactly the calendar year", "statement": "Parsing 'YYYY' succeeds; Lower() is January 1st 00:00:00 UTC and Upper() is December 31st 23:59:59 UTC of that year.", "quantifier": "every year 0000-9999", "why_tests_cant": "ten thousand inputs, all dispatch and arithmetic paths", "anchors": ["level0/date.go:ParseDate", "common/range.go:StringRangeFromYMD"]}
{"id": "C04", "title": "Negative years behave like positive ones", "statement": "Parsing '-YYYY', '-YYYY-MM' and '-YYYY-MM-DD' denotes the year, month or day of astronomical year -YYYY in the proleptic Gregorian calendar, including February 29th in negative leap years; '-0000' is year 0.", "quantifier": "every year -9999..-0000, every month and existing day", "why_tests_cant": "the code parses the positive year and shifts it by AddDate; whether leap days survive the shift for every year is a number-theoretic fact", "anchors": ["common/year.go:TimeToBCE", "common/time.go:TimeWithYMD", "calendar/calendar.go:DaysInMonth"]}
{"id": "C05", "title": "Days that do not exist are rejected", "statement": "Parsing a syntactically correct 'YYYY-MM-DD' (positive or negative year) whose day exceeds the length of the month is an error, never a normalised neighbouring date.", "quantifier": "every year -9999..9999, month, and day above the month length", "why_tests_cant": "Go's time package silently normalises overflowing dates in some calls; a sample cannot exclude it for all years", "anchors": ["common/ymd.go:YMDFromStrings", "level0/date.go:ParseDate"]}
{"id": "C06", "title": "Date-and-time strings denote the exact instant (years 0000-9999)", "statement": "Parsing 'YYYY-MM-DDThh:mm:ss' with no zone, 'Z', '+hh', '-hh', '+hh:mm' or '-hh:mm' gives Lower() = Upper() = the Unix time of the local reading minus the offset.", "quantifier": "every existing date in years 0000-9999, every time of day, every offset with hh <= 23 and mm <= 59", "why_tests_cant": "the product space of dates, times and offsets is about 10^15; boundary crossings over days, months and years must all be right", "anchors": ["level0/date_and_time.go:ParseDateAndTime"]}
{"id": "C07", "title": "Date-and-time strings denote the exact instant (negative years)", "statement": "The same as C06 for '-YYYY-MM-DDThh:mm:ss...' with the offset applied to the negative-year reading.", "quantifier": "every existing date in years -9999..-0001, every time of day and offset", "why_tests_cant": "only offsets that carry the instant across a year boundary misbehave; samples without such an offset pass", "anchors": ["level0/date_and_time.go:ParseDateAndTime", "common/year.go:TimeToBCE"]}
{"id": "C08", "title": "An interval is determined by its two endpoints", "statement": "Parsing 'A/B' for dates A and B gives a start range equal to [first second of A, last second of A] and an end range equal to [first second of B, last second of B].", "quantifier": "every pair of level 0 dates of any precision, positive or negative", "why_tests_cant": "pairs of dates; pointer surgery on two parsed spans could leak fields of one half into the other", "anchors": ["level0/time_interval.go:ParseTimeInterval", "common/span.go:DateSpanFromEDTF"]}
{"id": "C09", "title": "An accepted interval does not end before it starts", "statement": "If parsing 'A/B' succeeds then Lower() of the result is not later than its Upper().", "quantifier": "every interval string with two dated endpoints", "why_tests_cant": "a universally quantified ordering over all pairs", "anchors": ["level0/time_interval.go:ParseTimeInterval", "level2/interval.go:ParseInterval"]}
{"id": "C10", "title": "A parsed date remembers its source string", "statement": "If parsing s succeeds then String() of the result is s.", "quantifier": "all strings", "why_tests_cant": "all strings and all twenty feature parsers", "anchors": ["edtf.go:EDTFDate.String", "parser/parser.go:ParseString"]}
{"id": "C11", "title": "ParseString and Matches agree", "statement": "If parsing s succeeds with a level other than -1, Matches(s) succeeds with the same level and the same feature name; if Matches(s) reports an error, so does ParseString(s), except for the two literal strings '..' and ''.", "quantifier": "all strings", "why_tests_cant": "two separately maintained dispatch chains must agree on every string", "anchors": ["parser/parser.go:ParseString", "parser/parser.go:Matches", "level1/level1.go:Matches", "level2/level2.go:Matches"]}
{"id": "C12", "title": "Whatever parses is valid", "statement": "If ParseString(s) succeeds then IsValid(s) is true.", "quantifier": "all strings", "why_tests_cant": "quantifies over all strings", "anchors": ["parser/parser.go:IsValid", "parser/parser.go:ParseString"]}
{"id": "C13", "title": "Whatever is valid is understood", "statement": "If IsValid(s) is true then ParseString(s) either succeeds or reports that the feature is unsupported or not implemented; it does not report s as invalid.", "quantifier": "all strings", "why_tests_cant": "the validity test and the parser use different regular expressions; a difference shows only on strings nobody thought of testing", "anchors": ["parser/parser.go:IsValid", "re/level1.go:Level1", "re/level2.go:Level2"]}
{"id": "C14", "title": "'Unrecognized' is reported exactly for strings that are not valid", "statement": "ParseString(s) returns an error for which IsUnrecognized is true if and only if IsValid(s) is false.", "quantifier": "all strings", "why_tests_cant": "both directions quantify over all strings", "anchors": ["parser/parser.go:ParseString", "parser/parser.go:IsValid", "errors.go:IsUnrecognized"]}
{"id": "C15", "title": "ParseString never panics", "statement": "ParseString returns a value or an error for every input string.", "quantifier": "all strings", "why_tests_cant": "a crash needs one input among infinitely many; absence is a universal statement", "anchors": ["parser/parser.go:ParseString", "level2/significant_digits.go:ParseSignificantDigits", "common/exponential.go:ParseExponentialNotation"]}
{"id": "C16", "title": "A qualifier at the end of a date marks the whole date", "statement": "Parsing D followed by '?', '~' or '%' for a level 0 date D gives the same bounds as D, feature 'Qualification of a date (complete)', and uncertain and/or approximate flags set on exactly the components D has.", "quantifier": "every level 0 date D of any precision, each qualifier", "why_tests_cant": "the top-level dispatcher, not the per-feature parser the tests call, decides which feature is used", "anchors": ["level1/level1.go:ParseString", "level1/qualified_date.go:ParseQualifiedDate", "re/level1.go:Season"]}
{"id": "C17", "title": "An interval with an open or unknown side keeps that side open or unknown", "statement": "Parsing 'D/..', '../D', 'D/' and '/D' gives a dated side with the bounds of D and another side with no timestamp, flagged open (for '..') or unknown (for the empty side).", "quantifier": "every level 0 date D of any precision", "why_tests_cant": "the tests call the extended-interval parser directly or only check that no error is returned", "anchors": ["level1/extended_interval.go:ParseExtendedInterval", "level1/level1.go:ParseString", "common/span.go:DateSpanFromEDTF"]}
{"id": "C18", "title": "Seasons denote three consecutive months", "statement": "Parsing 'YYYY-21', '-22', '-23', '-24', or '<season>, YYYY' in any letter case and spacing, gives March-May, June-August, September-November or December-February of the following year, from the first second of the first month to the last second of the last, leap-year February included.", "quantifier": "every year 0000-9998 (9999 except winter), every season, every capitalisation and ASCII spacing; negative years -1000 and earlier", "why_tests_cant": "unbounded whitespace, 2^6 capitalisations, leap years at the February end", "anchors": ["level1/season.go:ParseSeason", "calendar/calendar.go:DaysInMonth"]}
{"id": "C19", "title": "Sub-year groupings denote their months", "statement": "Parsing 'YYYY-25'..'YYYY-41' gives the months the table in the documentation lists (hemisphere seasons, quarters, quadrimesters, semesters).", "quantifier": "every year 0000-9999 and every code 25-41", "why_tests_cant": "winter in the north and summer in the south run into the next year, whose number is written without padding", "anchors": ["level2/sub_year_grouping.go:ParseSubYearGroupings"]}
{"id": "C20", "title": "Unspecified digits: every reading lies inside the reported span", "statement": "If a date with X digits parses, then every existing calendar date obtained by replacing each X by a digit lies between Lower() and Upper().", "quantifier": "every pattern of digits and X in year, month and day, every replacement", "why_tests_cant": "each pattern stands for up to 10^8 readings", "anchors": ["common/range.go:StringRangeFromYMD", "level1/unspecified_digits.go:ParseUnspecifiedDigits", "level2/unspecified_digit.go:ParseUnspecifiedDigit"]}
{"id": "C21", "title": "Unspecified digits: the span is tight", "statement": "If a date with X digits parses, Lower() is the first second of some reading of it and Upper() the last second of some reading of it.", "quantifier": "every pattern of digits and X in year, month and day", "why_tests_cant": "existential over readings, universal over patterns", "anchors": ["common/range.go:StringRangeFromYMD"]}
{"id": "C22", "title": "Letter-prefixed years", "statement": "Parsing 'Y' followed by a four-digit (optionally negative) year denotes that year; more digits give an error for which IsUnsupported is true; fewer digits give an error for which IsInvalid is true.", "quantifier": "every digit string of any length", "why_tests_cant": "unbounded length", "anchors": ["level1/letter_prefixed_calendar_year.go:ParseLetterPrefixedCalendarYear"]}
{"id": "C23", "title": "Exponential years denote m*10^e", "statement": "Parsing 'Y<m>E<e>' either denotes the year m*10^e exactly, or reports an error; a year outside -9999..9999 is reported as unsupported.", "quantifier": "all integers m and e", "why_tests_cant": "the value passes through a 64-bit-mantissa float and a wrapping 64-bit conversion; misbehaviour needs values beyond 2^63", "anchors": ["common/exponential.go:ParseExponentialNotation", "level2/exponential_year.go:ParseExponentialYear"]}
{"id": "C24", "title": "Significant digits", "statement": "Parsing '<year>S<n>' for a four-digit year and 1 <= n <= 4 gives the span of all years that agree with it in the first n digits.", "quantifier": "every four-digit year, n = 1..4 (and what happens for larger n)", "why_tests_cant": "the only tested n is the one where counting from the left and from the right agree", "anchors": ["level2/significant_digits.go:ParseSignificantDigits"]}
{"id": "C25", "title": "A set runs from its earliest to its latest member", "statement": "Parsing a set of dates gives Lower() = the earliest first second among the members and Upper() = the latest last second among the members.", "quantifier": "every finite list of level 0 dates, in any order", "why_tests_cant": "unbounded lists, unordered; members are compared as strings", "anchors": ["level2/set_representation.go:ParseSetRepresentations"]}
{"id": "C26", "title": "Sets: choice and inclusion are told apart and open sides are kept", "statement": "A set in '[' carries the ANY flag on every dated boundary and one in '{' the ALL flag; '[..D]' and '[D..]' have the bounds of D on one side and an open other side.", "quantifier": "every list of members, both brackets, every level 0 date D", "why_tests_cant": "unbounded lists and flags on four boundaries that may be shared", "anchors": ["level2/set_representation.go:ParseSetRepresentations"]}
{"id": "C27", "title": "A qualifier to the right of a component applies to it and everything to its left", "statement": "Group qualification sets the uncertain/approximate flags on exactly the qualified component and the components to its left, and leaves the bounds those of the unqualified date.", "quantifier": "every date, every combination of qualifiers on its components", "why_tests_cant": "4^3 qualifier patterns times all dates", "anchors": ["common/range.go:StringRangeFromYMD", "level2/qualification.go:ParseGroupQualification"]}
{"id": "C28", "title": "A qualifier to the left of a component applies to that component only", "statement": "Individual qualification sets flags on exactly the qualified components and leaves the bounds those of the unqualified date.", "quantifier": "every date, every combination of qualifiers on its components", "why_tests_cant": "4^3 qualifier patterns times all dates", "anchors": ["common/range.go:StringRangeFromYMD", "level2/qualification.go:ParseIndividualQualification"]}
{"id": "C29", "title": "Level 2 intervals keep each endpoint's own qualifiers and digits", "statement": "Parsing 'A/B' with qualified or partially unspecified endpoints gives start-range flags and bounds from A alone and end-range flags and bounds from B alone.", "quantifier": "every pair of endpoints", "why_tests_cant": "pairs of endpoint patterns", "anchors": ["level2/interval.go:ParseInterval", "common/span.go:DateSpanFromEDTF"]}
{"id": "C30", "title": "The open and the unknown date", "statement": "Parsing '..' gives a date of level -1 whose four boundaries are flagged open, and '' one whose four boundaries are flagged unknown; Lower() and Upper() of both return errors.", "quantifier": "the two literals, and no other string yields level -1", "why_tests_cant": "that no other string yields level -1 is a statement about all strings", "anchors": ["parser/parser.go:ParseString", "common/span.go:OpenDateSpan"]}
{"id": "C31", "title": "Every result is well formed", "statement": "If parsing s succeeds, all four boundaries are present (no nil); each boundary is either dated, open or unknown and never two of these; a dated boundary has a datetime text that is the RFC 3339 UTC rendering of its timestamp, and its year/month/day, when present, is an existing date containing the timestamp.", "quantifier": "all strings", "why_tests_cant": "all strings and all feature parsers", "anchors": ["common/span.go:DateSpanFromEDTF", "date.go:SetTime", "parser/parser.go:ParseString"]}
{"id": "C32", "title": "Inside each range lower is not after upper", "statement": "If parsing s succeeds, the start range's lower timestamp is not after its upper timestamp when both exist, and likewise for the end range.", "quantifier": "all strings", "why_tests_cant": "all strings; depends on string-ordered sets of negative years", "anchors": ["common/span.go:dateSpanFromYMD", "level2/set_representation.go:ParseSetRepresentations"]}
{"id": "C33", "title": "Years stay within the supported range", "statement": "If parsing s succeeds, every year reported on a boundary lies between -9999 and 9999.", "quantifier": "all strings", "why_tests_cant": "all strings, including exponential and significant-digit forms", "anchors": ["common/ymd.go:YMDFromStrings", "edtf.go:MAX_YEARS"]}
{"id": "C34", "title": "Before and After are the comparison of bounds, and mirror each other", "statement": "For dates with bounds, x.After(y) is true exactly when y.Upper() <= x.Lower(), x.Before(y) exactly when x.Upper() <= y.Lower(); hence x.After(y) = y.Before(x).", "quantifier": "all pairs of parsed dates with timestamps", "why_tests_cant": "all pairs", "anchors": ["edtf.go:EDTFDate.After", "edtf.go:EDTFDate.Before", "cmp/after.go:IsAfter", "cmp/before.go:IsBefore"]}
{"id": "C35", "title": "No date is before or after itself", "statement": "x.After(x) and x.Before(x) are false, and x.After(y) and y.After(x) are never both true.", "quantifier": "all parsed dates", "why_tests_cant": "fails only where lower and upper coincide", "anchors": ["edtf.go:EDTFDate.After", "edtf.go:EDTFDate.Before"]}
{"id": "C36", "title": "Before and After are transitive", "statement": "If x is after y and y is after z then x is after z, for parsed dates that do not end before they start; likewise before.", "quantifier": "all triples of parsed dates", "why_tests_cant": "all triples", "anchors": ["edtf.go:EDTFDate.After", "edtf.go:EDTFDate.Before"]}
{"id": "C37", "title": "IsBetween means: not before the inception and not after the cessation", "statement": "For parsable d, inception and cessation with bounds, IsBetween is true exactly when the end of d is after the start of inception and the start of d is before the end of cessation; with cessation '..' only the first condition counts.", "quantifier": "all triples of strings", "why_tests_cant": "all triples; open-ended cessation is a separate path", "anchors": ["cmp/between.go:IsBetween"]}
{"id": "C38", "title": "DeriveRanges reports the parsed bounds", "statement": "DeriveRanges(s) succeeds with true exactly when parsing s succeeds with four timestamps (and s is not one of the literal open/unknown strings), and then the outer span is (Lower(), Upper()) and the inner span is (start upper, end lower); for a single calendar date outer.Start <= inner.Start <= inner.End <= outer.End.", "quantifier": "all strings", "why_tests_cant": "all strings", "anchors": ["unix/range.go:DeriveRanges"]}
{"id": "C39", "title": "Days in a month", "statement": "DaysInMonth(y, m) is the Gregorian length of month m of year y for negative and positive years; years beyond four digits and negative months are errors.", "quantifier": "all |y| <= 9999 and 1 <= m <= 12, and all integers outside", "why_tests_cant": "20000 years by 12 months; the code takes the day before the first of the next month without advancing the year in December", "anchors": ["calendar/calendar.go:DaysInMonth", "calendar/calendar.go:DaysInMonthWithString"]}
{"id": "C40", "title": "Year-month-day strings", "statement": "YMDFromString on a full date returns that date, and every value it returns for a month and day string of digits is an existing calendar date.", "quantifier": "every year -9999..9999, month, day; all digit strings", "why_tests_cant": "all digit strings of any length", "anchors": ["common/ymd.go:YMDFromString", "common/ymd.go:YMDFromStrings", "ymd.go:YMD.Equals"]}
{"id": "C41", "title": "Precision flags form a set", "statement": "AddFlag, ClearFlag, ToggleFlag and HasFlag behave as union, difference, symmetric difference and intersection test on sets of bits, and the named precisions are pairwise disjoint single bits.", "quantifier": "all 2^32 values for both operands", "why_tests_cant": "2^64 pairs", "anchors": ["precision.go:Precision"]}
{"id": "C42", "title": "JSON round trip", "statement": "Encoding a parsed date to JSON and decoding it gives back the same date, and a timestamp of zero is kept while an absent one stays absent.", "quantifier": "all dates (every field value)", "why_tests_cant": "all field values; omitempty drops zero values", "anchors": ["edtf.go:EDTFDate", "date.go:Date", "timestamp.go:Timestamp"]}
{"id": "C43", "title": "Error constructors and predicates correspond", "statement": "IsX(e) is true exactly for errors made by X, for each of NotSet, NotImplemented, Invalid, Unsupported and Unrecognized; Lower() and Upper() of an undated side return an error for which IsNotSet is true.", "quantifier": "all labels and strings, all five kinds", "why_tests_cant": "all labels and strings", "anchors": ["errors.go"]}
{"id": "C44", "title": "Deprecated values", "statement": "IsDeprecated(s) is true exactly when ReplaceDeprecated(s) succeeds; the replacement is never deprecated and is open (unspecified) exactly when s is.", "quantifier": "all strings", "why_tests_cant": "all strings", "anchors": ["deprecated.go:IsDeprecated", "deprecated.go:ReplaceDeprecated", "edtf.go:IsOpen", "edtf.go:IsUnspecified"]}
{"id": "C45", "title": "Timestamps survive JSON", "statement": "Unmarshalling the marshalled form of a timestamp (bare or quoted) gives the timestamp back; unmarshalling accepts exactly the decimal 64-bit integers, optionally quoted.", "quantifier": "all 64-bit integers; all byte strings", "why_tests_cant": "2^64 values", "anchors": ["timestamp.go:Timestamp.MarshalJSON", "timestamp.go:Timestamp.UnmarshalJSON"]}
{"id": "C46", "title": "Reported precision matches the written precision", "statement": "The precision of a parsed date is DAY for 'YYYY-MM-DD', MONTH for 'YYYY-MM' and YEAR for 'YYYY'; with unspecified year digits it is DECADE, CENTURY or MILLENIUM.", "quantifier": "every level 0 date and every unspecified-digit year", "why_tests_cant": "all dates; the precision is overwritten on a path the tests do not assert", "anchors": ["common/range.go:StringRangeFromYMD", "precision.go"]}
{"id": "C47", "title": "Sign flips of years are exact", "statement": "FlipYear negates every year it can be given by the parsers and is an involution; TimeToBCE keeps month, day and time of day and negates the year, for every instant, leap days included.", "quantifier": "all years; all instants of all years", "why_tests_cant": "all instants", "anchors": ["common/year.go:FlipYear", "common/year.go:TimeToBCE"]}
{"id": "C48", "title": "The extended-interval test recognises extended intervals only", "statement": "IsExtendedInterval(s) is true exactly for strings 'D/..', 'D/', '../D' and '/D'.", "quantifier": "all strings", "why_tests_cant": "all strings", "anchors": ["level1/extended_interval.go:IsExtendedInterval"]}
{"id": "C49", "title": "The season test recognises seasons only", "statement": "IsSeason(s) is true exactly for 'YYYY-MM' with MM in 01-12 or 21-24 and for '<season>, YYYY'.", "quantifier": "all strings", "why_tests_cant": "all strings", "anchors": ["level1/season.go:IsSeason", "re/level1.go:Season"]}
{"id": "C50", "title": "The set test requires matching brackets", "statement": "A string recognised as a set closes with the bracket that matches its opening one.", "quantifier": "all strings", "why_tests_cant": "all strings", "anchors": ["level2/set_representation.go:IsSetRepresentation"]}
{"id": "C51", "title": "The parse tool prints one JSON array element per argument, in order, or fails", "statement": "The parse tool exits with success exactly when every argument parses, and then prints a JSON array whose n-th element encodes the n-th argument.", "quantifier": "all argument lists", "why_tests_cant": "argument lists of any length", "anchors": ["cmd/parse/main.go:main"]}
{"id": "C52", "title": "The matches tool prints one line per argument", "statement": "When the first argument is not taken for a flag, the matches tool exits with success exactly when every argument is recognised, and then prints for each argument, in order, one line with the argument, its level and its feature; it succeeds whenever the parse tool does on arguments other than the open and the unknown date.", "quantifier": "all argument lists", "why_tests_cant": "argument lists of any length", "anchors": ["cmd/matches/main.go:main", "parser/parser.go:Matches"]}
{"id": "C53", "title": "The WASI tool prints a line for every argument", "statement": "When the first argument is not taken for a flag, the WASI tool exits with success exactly when no argument makes the parser panic, and prints one line per argument, in order: JSON that decodes to the parsed date, or the text of the error.", "quantifier": "all argument lists", "why_tests_cant": "argument lists of any length", "anchors": ["cmd/parse-wasi/main.go:main", "cmd/parse-wasi/main.go:parse"]}
{"id": "C54", "title": "The accepted language is exactly the specified one", "statement": "ParseString returns a date, and no error, for exactly the strings generated by the grammar Accepted: the unknown and open dates, dates and times that exist, intervals of readable dates, dates with an open or unknown side, qualified or unspecified dates, seasons by number or name, letter-prefixed and exponential years of four digits, significant digits, sub-year groupings and sets, each with the exact side conditions.", "quantifier": "all strings", "why_tests_cant": "both the accepted and the rejected strings are infinitely many, and no reference implementation decides the same language", "anchors": ["parser/parser.go:ParseString", "level0/level0.go:ParseString", "level1/level1.go:ParseString", "level2/level2.go:ParseString"]}
{"id": "C55", "title": "Every string has exactly the specified result", "statement": "ParseString returns the record d for the string s, and no error, exactly when s denotes d in the specification Denotes: for each form of the accepted language the start and end ranges with their instants, days, qualifier, precision and inclusivity flags, open and unknown marks, texts, level and feature. No string denotes two records.", "quantifier": "all strings and all results", "why_tests_cant": "the results for infinitely many strings, each a record of some forty fields, are fixed completely, and so is the absence of any other result", "anchors": ["parser/parser.go:ParseString", "level0/level0.go:ParseString", "level1/level1.go:ParseString", "level2/level2.go:ParseString", "common/span.go:DateSpanFromEDTF", "common/span.go:dateSpanFromYMD"]}
{"id": "C56", "title": "The test helper accepts exactly the dates that agree with the expectations", "statement": "TestResult.TestDate returns no error for a parsed date exactly when each of its four boundaries agrees with the expected texts, instants, precision, uncertainty, approximation, open and unknown marks and inclusivity; otherwise it returns an error and does not panic. An expectation copied from a date is met by it.", "quantifier": "all strings that parse, all expectations", "why_tests_cant": "this is the helper the tests themselves rely on, so they pass whether or not it looks at a field", "anchors": ["tests/tests.go:TestDate", "tests/tests.go:testPrecision", "tests/tests.go:testRFC3339All", "tests/tests.go:testUnixAll"]}
{"id": "C57", "title": "The WebAssembly function settles its promise correctly", "statement": "parse_edtf fulfils its promise exactly when its first argument is a string that parses, with a JSON text that decodes to the parsed date; it rejects the promise with the error message when the argument does not parse; it never ends the program.", "quantifier": "all argument lists, all strings", "why_tests_cant": "the function is only built for WebAssembly and has no tests; the arguments are arbitrary JavaScript values", "anchors": ["cmd/parse-wasm/main.go:ParseFunc"]}
{"id": "C58", "title": "The tests of Level 0 hold of exactly the written forms", "statement": "IsDate holds exactly of a year of four digits (perhaps after a minus), alone or with a month 01-12, or with these and a day 01-31; IsDateAndTime exactly of a date, T, three pairs of digits and a zone; IsTimeInterval exactly of two dates around a slash.", "quantifier": "all strings", "why_tests_cant": "the tests try a dozen strings; a pattern that also accepts a suffix, or rejects one digit, agrees on them", "anchors": ["level0/date.go:IsDate", "level0/date_and_time.go:IsDateAndTime", "level0/time_interval.go:IsTimeInterval", "re/re.go"]}
{"id": "C59", "title": "The tests of Level 1 hold of exactly the written forms", "statement": "IsLetterPrefixedCalendarYear, IsQualifiedDate, IsUnspecifiedDigits and IsNegativeCalendarYear hold exactly of the strings of their forms: Y, perhaps a minus, and digits; a date and a mark; four, six or eight places with X, and so on.", "quantifier": "all strings", "why_tests_cant": "the tests try a few strings per form", "anchors": ["level1/letter_prefixed_calendar_year.go:IsLetterPrefixedCalendarYear", "level1/qualified_date.go:IsQualifiedDate", "level1/unspecified_digits.go:IsUnspecifiedDigits", "level1/negative_calendar_year.go:IsNegativeCalendarYear", "re/re.go"]}
{"id": "C60", "title": "The tests of Level 2 hold of exactly the written forms", "statement": "IsExponentialYear, IsSignificantDigits, IsSubYearGrouping, IsGroupQualification, IsIndividualQualification, IsUnspecifiedDigit and IsInterval hold exactly of the strings of their forms.", "quantifier": "all strings", "why_tests_cant": "the tests try a few strings per form", "anchors": ["level2/exponential_year.go:IsExponentialYear", "level2/significant_digits.go:IsSignificantDigits", "level2/sub_year_grouping.go:IsSubYearGrouping", "level2/qualification.go:IsGroupQualification", "level2/qualification.go:IsIndividualQualification", "level2/unspecified_digit.go:IsUnspecifiedDigit", "level2/interval.go:IsInterval", "re/re.go"]}
{"id": "C61", "title": "The test of a level holds of exactly the forms of that level", "statement": "IsLevel0, IsLevel1 and IsLevel2 hold of a string exactly when it has one of the forms of the level; IsValid holds exactly when one of the three does or the string is open or unknown.", "quantifier": "all strings", "why_tests_cant": "the tests of the levels only try strings that belong to them", "anchors": ["level0/level0.go:IsLevel0", "level1/level1.go:IsLevel1", "level2/level2.go:IsLevel2", "parser/parser.go:IsValid", "re/re.go"]}
{"id": "C62", "title": "The error of every rejected string", "statement": "ParseString returns an error exactly for the strings of a listed set of cases, and in each case the kind of error, its label and the text it quotes are determined; no string has two errors.", "quantifier": "all strings", "why_tests_cant": "the tests only try a few strings that must fail, and look at no error text", "anchors": ["parser/parser.go:ParseString", "level0/level0.go:ParseString", "level1/level1.go:ParseString", "level2/level2.go:ParseString", "common/span.go:DateSpanFromEDTF", "common/span.go:dateSpanFromYMD", "common/exponential.go:ParseExponentialNotation", "errors.go", "level2/set_representation.go:ParseSetRepresentations", "level2/significant_digits.go:ParseSignificantDigits"]}
{"id": "C63", "title": "Exactly which strings end the program", "statement": "ParseString panics exactly on years with an exponent whose value, with the roundings of math/big, is infinite, also before significant digits, and on years with more significant digits than characters but fewer than ten to that power. Every string is either accepted, or has an error, or panics, and only one of these.", "quantifier": "all strings", "why_tests_cant": "no test has a string that panics; the boundary lies at exponents in the hundreds of millions", "anchors": ["parser/parser.go:ParseString", "level2/significant_digits.go:ParseSignificantDigits", "level2/exponential_year.go:ParseExponentialYear", "common/exponential.go:ParseExponentialNotation"]}
{"id": "C64", "title": "DateSpanFromEDTF on every text", "statement": "DateSpanFromEDTF returns the span of a text exactly if it is a date that can be read or two sides, each a date, nothing or two dots, and this span is determined; for every other text the error is determined, and it never panics.", "quantifier": "all strings", "why_tests_cant": "the function is exported and is called with strings built by other functions; tests have a handful of spans", "anchors": ["common/span.go:DateSpanFromEDTF", "common/span.go:dateSpanFromYMD", "common/span.go:dateSpanFromEDTF"]}
{"id": "C65", "title": "Each exported parser on every string", "statement": "Every parser of a single feature and of a level, when called directly, returns for the strings of its form the span of a determined text, with its own label and level, and for all other strings its error: among these the season parser, which reads a prefix or a suffix, and the grouping parser, which also takes the numbers 21 to 24.", "quantifier": "all strings, all eighteen parsers of features and three of levels", "why_tests_cant": "tests call each parser with the strings meant for it, never with those of another", "anchors": ["level0/date.go:ParseDate", "level0/date_and_time.go:ParseDateAndTime", "level0/time_interval.go:ParseTimeInterval", "level0/level0.go:ParseString", "level1/qualified_date.go:ParseQualifiedDate", "level1/negative_calendar_year.go:ParseNegativeCalendarYear", "level1/extended_interval.go:ParseExtendedInterval", "level1/extended_interval.go:ParseExtendedIntervalStart", "level1/extended_interval.go:ParseExtendedIntervalEnd", "level1/unspecified_digits.go:ParseUnspecifiedDigits", "level1/letter_prefixed_calendar_year.go:ParseLetterPrefixedCalendarYear", "level1/season.go:ParseSeason", "level1/level1.go:ParseString", "level2/set_representation.go:ParseSetRepresentations", "level2/unspecified_digit.go:ParseUnspecifiedDigit", "level2/interval.go:ParseInterval", "level2/sub_year_grouping.go:ParseSubYearGroupings", "level2/significant_digits.go:ParseSignificantDigits", "level2/qualification.go:ParseGroupQualification", "level2/qualification.go:ParseIndividualQualification", "level2/exponential_year.go:ParseExponentialYear", "level2/level2.go:ParseString"]}
{"id": "C66", "title": "Matches on every string", "statement": "Matches, of the parser and of each level, returns the label of the first form in a fixed order that the string has; the parser takes the lowest level first. It fails exactly for a small x, for something after a form of Level 2, and for strings of no form, with a determined error, and it never panics.", "quantifier": "all strings", "why_tests_cant": "forms overlap, so that the order matters for infinitely many strings; tests compare some labels", "anchors": ["parser/parser.go:Matches", "level0/level0.go:Matches", "level1/level1.go:Matches", "level2/level2.go:Matches"]}
{"id": "C67", "title": "Comparisons and Unix ranges on every string", "statement": "IsAfter and IsBefore give, for every pair of strings, exactly: a plain error if one cannot be read, a panic if reading one panics, false if the first is open, the wrapped not-implemented error if the lower or upper bound needed is open or unknown, and otherwise the comparison of the two instants. IsBetween combines them, does not look at the cessation if the date is before the inception, and does not read an open cessation. DeriveRanges wraps the error of the parser, skips four words, and gives the four instants if and only if all are there.", "quantifier": "all strings, all pairs and triples of strings", "why_tests_cant": "tests compare a few pairs of readable dates", "anchors": ["cmp/after.go:IsAfter", "cmp/before.go:IsBefore", "cmp/between.go:IsBetween", "unix/range.go:DeriveRanges", "edtf.go:After", "edtf.go:Before", "edtf.go:Lower", "edtf.go:Upper"]}
{"id": "C68", "title": "Which strings have no lower or upper bound", "statement": "A string is read without a lower bound exactly if it is unknown or open, an interval without a start, or a set that starts with '..' or ends with a lone '..' or with a comma; without an upper bound exactly if it is unknown or open, an interval without an end, or a set that ends with 'x..' and has no '..' at its start. For exactly these strings, and the word for unspecified, there are no Unix ranges.", "quantifier": "all strings", "why_tests_cant": "which of infinitely many sets lose a bound is not visible from some sets", "anchors": ["edtf.go:Lower", "edtf.go:Upper", "unix/range.go:DeriveRanges", "level2/set_representation.go:ParseSetRepresentations", "level1/extended_interval.go:ParseExtendedInterval"]}
{"id": "C69", "title": "The helpers for years, months, days and instants on every input", "statement": "DaysInMonth gives the length of months 1 to 12 of the years -9999 to 9999, 31 for month 0 and for months from 13 on, and an error for negative months and longer years. DaysInMonthWithString and YMDFromString split at the hyphens, drop what stands before the first of two (three) hyphens and read the rest as a negative year. YMDFromStrings takes any signed decimal integers: month 0 is January and day 0 the last of the month, negative days pass unchanged, a year of more than four digits is the unsupported error with the year but without its sign, and everything else is a plain error. TimeWithYMD gives the instant if and only if the date exists, the year has at most four digits and the time is hh:mm:ss or h:mm:ss, after which time.Parse also takes a fraction of a second (a point or a comma and digits). Equals is equality of the three texts.", "quantifier": "all 64-bit integers and all texts", "why_tests_cant": "the tests of these helpers use well formed dates; signs, huge numbers, extra hyphens and month 0 are never tried", "anchors": ["calendar/calendar.go:DaysInMonth", "calendar/calendar.go:DaysInMonthWithString", "common/ymd.go:YMDFromStrings", "common/ymd.go:YMDFromString", "common/ymd.go:YMDFromStringDate", "common/time.go:TimeWithYMD", "common/time.go:TimeWithYMDString", "common/range.go:Equals"]}
{"id": "C70", "title": "StringRangeFromYMD on every text", "statement": "For every text StringRangeFromYMD gives exactly the texts of the first and of the last day, the precision and the qualifiers that the written form determines (years, months and days that do not end in X are passed on unread, even with an X in front), or exactly the error of the form: invalid for no date and for day 0X, not-implemented if the first and last digit of the year are X, plain for a negative year ending in X or if the last day of a month is needed in a year or month that is no number. It never panics.", "quantifier": "all texts", "why_tests_cant": "the combinations of unspecified digits, signs and qualifiers are too many to list", "anchors": ["common/range.go:StringRangeFromYMD", "common/range.go:parseYMDComponent", "calendar/calendar.go:DaysInMonthWithString"]}
{"id": "C71", "title": "Which texts are read as JSON, and as what", "statement": "A text is read as a JSON value if and only if the grammar of JSON (blanks, escapes including surrogate pairs, numbers without leading zeros, nesting up to 10000 levels) gives it that value; the value is unique, and every other text is refused.", "quantifier": "all texts and all JSON values", "why_tests_cant": "the texts are infinitely many, and surrogates, deep nesting and number forms are never tried by the package's tests", "anchors": ["timestamp.go:UnmarshalJSON", "cmd/parse/main.go:main"]}
{"id": "C72", "title": "Which date each JSON text is decoded to", "statement": "Decoding a text gives a date if and only if the text is JSON and every member fits: names are compared without regard to case (including the long s and the Kelvin sign), repeated members are applied one after the other onto what is there already, null leaves strings and numbers alone and clears pointers, unknown members are skipped, numbers must be integers of the field's width, timestamps may be quoted. The resulting date is determined member by member.", "quantifier": "all texts and all dates", "why_tests_cant": "no test decodes repeated, misspelled or ill-typed members", "anchors": ["timestamp.go:UnmarshalJSON", "edtf.go:EDTFDate", "date.go:Date", "ymd.go:YMD"]}
{"id": "C73", "title": "The JSON text of every date", "statement": "The JSON text of a date is, character by character, the object with start, end, edtf, level and feature in that order, in which a boundary always has ymd and has the other members only if they are not empty, absent ranges, boundaries and calendar dates are null, and strings are escaped (quotes, backslashes, control characters, <, >, & and the two line separators).", "quantifier": "all dates, with any contents of their fields", "why_tests_cant": "the tests look at a few parsed dates only", "anchors": ["timestamp.go:MarshalJSON", "edtf.go:EDTFDate", "cmd/parse/main.go:main"]}
{"id": "C74", "title": "The tools on all argument lists", "statement": "For every list of arguments, standard output and exit status of parse, matches and parse-wasi, and the outcome of parse-wasm for every list of JavaScript values, are those of the specification: flags first (help 0, other flags 2, -- dropped), then one text for each argument from what the argument denotes, up to the first error (1) or panic (2); parse separates with commas and closes its array only after a run without error.", "quantifier": "all lists of arguments", "why_tests_cant": "there are no tests of the tools", "anchors": ["cmd/parse/main.go:main", "cmd/matches/main.go:main", "cmd/parse-wasi/main.go:main", "cmd/parse-wasm/main.go:ParseFunc"]}
{"id": "C75", "title": "The methods of a date on every record", "statement": "Lower, Upper, After and Before of any dates, with any ranges, boundaries or timestamps missing, give exactly the outcome of the specification: a panic if a range or boundary is missing, the error for a missing timestamp, and otherwise a comparison of the instants counted from the year 1, which wraps around for the last 62135596800 seconds before 2^63. Equals of calendar dates is equality.", "quantifier": "all pairs of dates with 64-bit timestamps", "why_tests_cant": "tests only use parsed dates, which have all ranges and small timestamps", "anchors": ["edtf.go:Lower", "edtf.go:Upper", "edtf.go:After", "edtf.go:Before", "ymd.go:Equals", "timestamp.go:Time"]}
{"id": "C76", "title": "The matcher finds the leftmost, preferred match", "statement": "For every regular expression over ASCII classes and every text: MatchString holds if and only if there is a way to match somewhere in the text; a search finds the match that starts leftmost and is preferred (left alternative first, repetitions and optional parts taken as long as possible) among those that start there, of which there is exactly one; and each group has the text it was last given in that match, otherwise the empty text. The trees used for the patterns match exactly as the parsed pattern strings do, whatever the associativity.", "quantifier": "all regular expressions with ASCII classes (all patterns of the package are), all texts", "why_tests_cant": "the patterns have overlapping alternatives and unanchored ends; tests of single strings say nothing about which of several ways to match is taken, and the rest of the claims depends on the matcher being right for every text", "anchors": ["re/re.go", "re/level1.go:Season", "re/level2.go:Level2", "common/range.go:parseYMDComponent"]}
{"id": "C77", "title": "What the texts of errors and records tell", "statement": "The text of an error of ParseString tells its kind, its label and its string, since none of its eight labels has a parenthesis; the beginning of the text tells the kind; the text of NotSet() says \"Not implemented\". The text of a YMD tells it, the text of a Date tells the instant and the day and nothing else, the texts of ranges and spans tell these and which sides are missing; the texts of string dates and qualifiers tell them if they have no quotes. String of a parsed date parses to the same date. Brackets are balanced in the text of a date and never in the text of a range.", "quantifier": "all errors and all records", "why_tests_cant": "no test reads these texts; whether two different values can print alike is a statement about all pairs of values", "anchors": ["errors.go:Error", "errors.go:NotSet", "ymd.go:String", "date.go:String", "daterange.go:String", "datespan.go:String", "edtf.go:String", "common/range.go:String"]}
{"id": "C78", "title": "The characters of the notation, and strings that are not UTF-8", "statement": "The characters that occur in strings the parser understands are exactly the digits, -/.:+?~%[]{}, and white space, T Z Y y E e X x S, the letters of the season names in both cases and the long s. A string with any other character is never understood, nor does it crash the parser: it is an invalid level 2 string if IsValid says true (it then begins like a level 2 string), otherwise it is unrecognized, and Matches says the same; what follows the first such character does not matter. Bytes that are not UTF-8 are treated in this way; a date is read from bytes if and only if they are the UTF-8 text of a string from which it is read.", "quantifier": "all characters, all strings, all byte strings", "why_tests_cant": "the tests have ASCII strings only; the claim is about every Unicode character at every place of every string and about every sequence of bytes", "anchors": ["parser/parser.go:ParseString", "parser/parser.go:IsValid", "parser/parser.go:Matches", "level2/level2.go:ParseString", "re/level2.go:Level2"]}
{"id": "C79", "title": "The text of the error for every string", "statement": "The error that ParseString returns for a string has exactly one text, which is determined by the form of the string. The four error types of the package say their kind, the string and the label. A plain error says: the first part of a date (year, month, day) in which a digit other than the last is unspecified, with strconv's message for it, and otherwise 'Invalid days for month'; for a negative year whose last digit is unspecified, strconv's message for \"-\"; for a date and a time, package time's message with the layout and the rest of the text if the date has no day, and otherwise the first of hour, minute, second, minute of the zone, hour of the zone and day that is out of range; for the winter of 9999 the message about 10000-03-01; for an exponential year, strconv's message for the exponent if it is not below 2^63 and otherwise 'exponent overflow'; for an interval the message for its first side that cannot be read; for a set the message for its least member if that cannot be read, otherwise for its greatest.", "quantifier": "all strings", "why_tests_cant": "no test looks at the text of an error; the claim fixes the text for every string, including which of several faults is reported", "anchors": ["parser/parser.go:ParseString", "common/ymd.go:YMDFromStrings", "common/range.go:StringRangeFromYMD", "common/span.go:dateSpanFromYMD", "level0/date_and_time.go:ParseDateAndTime", "level1/season.go:ParseSeason", "common/exponential.go:ParseExponentialNotation", "errors.go:Error"]}
{"id": "C80", "title": "What the tools write to standard error", "statement": "For every list of arguments and every name of the program, what parse, matches and parse-wasi write to standard error (apart from the time stamp of a log line and the trace of a panic) is: for a first argument taken for a flag, the message of package flag (none for help) followed by the usage; for parse and matches, one line with the first argument that gives an error and the text of that error; otherwise nothing. parse-wasi complains about flags only.", "quantifier": "all lists of arguments, all program names", "why_tests_cant": "there are no tests of the tools, and the argument lists are arbitrary", "anchors": ["cmd/parse/main.go:main", "cmd/matches/main.go:main", "cmd/parse-wasi/main.go:main"]}
{"id": "C81", "title": "What the errors of the comparisons say", "statement": "For all strings, the text of the error that IsAfter, IsBefore, IsBetween, DeriveRanges or ReplaceDeprecated returns is exactly known: a wrong string is quoted with the text of the parser's error for it, the first string before the second; a bound that is open or unknown is named with the string it belongs to, that of the second string before that of the first, and the reason given is always \"Not implemented '' ()\"; IsBetween puts the name of the failed comparison before; ReplaceDeprecated lists the strings it knows.", "quantifier": "all strings", "why_tests_cant": "the existing tests compare seven pairs of valid dates and look at no message; the texts depend on arbitrary strings", "anchors": ["cmp/after.go:IsAfter", "cmp/before.go:IsBefore", "cmp/between.go:IsBetween", "edtf.go:After", "edtf.go:Before", "unix/range.go:DeriveRanges", "deprecated.go:ReplaceDeprecated"]}
{"id": "C82", "title": "The dates form a tree of nested times", "statement": "For any two strings understood as Level 0 dates (year, year-month or year-month-day): the time of one lies inside that of the other exactly if the text of the other is the beginning of its text; otherwise they have no instant in common; they have the same time exactly if the texts are the same (a sign before 0000 aside). Every second of the years -9999 to 9999 is in exactly one written year, one written month and one written day; a date's time is exactly that of the finer dates beginning with its text; each date is followed, one second after its end, by a date of the same precision. From year 0 on the order of texts is the order of times, and IsBefore and IsAfter tell it; before year 0 the order of texts is the reverse for different years.", "quantifier": "all pairs of accepted Level 0 dates, all seconds of the years -9999 to 9999", "why_tests_cant": "it relates every pair of some 15 million strings; gaps or overlaps of one second at a month end, in a leap year or around year 0 are easily missed", "anchors": ["level0/date.go:ParseDate", "common/span.go:DateSpanFromEDTF", "common/range.go:StringRangeFromYMD", "cmp/before.go:IsBefore", "cmp/after.go:IsAfter"]}
{"id": "C83", "title": "What the test helper says", "statement": "For every date whose boundaries are as the parser makes them, some of them possibly missing, and every expectation, TestDate ends with the outcome of the first thing that is wrong: the eight kinds of checks are made one after the other (text of the time, number of the time, precision, uncertain, approximate, open, unknown, inclusivity), each at the four boundaries in order, and the error names the boundary and the field and gives what was expected and, for times and marks, what was found. A missing boundary makes it panic when it is looked at, which for the times is only when one is expected. A date with a missing boundary never passes.", "quantifier": "all dates with boundaries of that kind (in particular all parsed dates), all expectations", "why_tests_cant": "the tests of the package only run the helper on dates that pass; neither its errors nor their order nor missing boundaries occur", "anchors": ["tests/tests.go:TestDate", "tests/tests.go:testRFC3339All", "tests/tests.go:testUnixAll", "tests/tests.go:testPrecision", "tests/tests.go:testBoolean"]}
{"id": "C84", "title": "What the exported parsers and DateSpanFromEDTF say", "statement": "When a parser of a single feature or of a level, or DateSpanFromEDTF, is called directly and returns an error, its text is determined: for a string that has not the form it names the string and the feature; for one that has, it is the text for the span of the string (of the left side if that is wrong, else of the right side), or that which ParseString gives for the same string; a season or grouping gives the text for the span that stands for it, except that winters that end in the year 10000 give the complaint of package time about 10000-03-01.", "quantifier": "all strings, all eighteen parsers of features, three of levels, and DateSpanFromEDTF", "why_tests_cant": "tests look at whether there is an error, never at its text, and call no parser with a string of another form", "anchors": ["common/span.go:DateSpanFromEDTF", "level0/date.go:ParseDate", "level0/date_and_time.go:ParseDateAndTime", "level0/time_interval.go:ParseTimeInterval", "level0/level0.go:ParseString", "level1/qualified_date.go:ParseQualifiedDate", "level1/negative_calendar_year.go:ParseNegativeCalendarYear", "level1/extended_interval.go:ParseExtendedInterval", "level1/extended_interval.go:ParseExtendedIntervalStart", "level1/extended_interval.go:ParseExtendedIntervalEnd", "level1/unspecified_digits.go:ParseUnspecifiedDigits", "level1/letter_prefixed_calendar_year.go:ParseLetterPrefixedCalendarYear", "level1/season.go:ParseSeason", "level1/level1.go:ParseString", "level2/set_representation.go:ParseSetRepresentations", "level2/unspecified_digit.go:ParseUnspecifiedDigit", "level2/interval.go:ParseInterval", "level2/sub_year_grouping.go:ParseSubYearGroupings", "level2/significant_digits.go:ParseSignificantDigits", "level2/qualification.go:ParseGroupQualification", "level2/qualification.go:ParseIndividualQualification", "level2/exponential_year.go:ParseExponentialYear", "level2/level2.go:ParseString"]}
{"id": "C85", "title": "What the helpers for years, months, days and instants say", "statement": "When a helper for dates is called directly and returns an error, its text is determined: a text that is no decimal integer of 64 bits is quoted as strconv quotes it with the reason (out of range as soon as the digits read from the left have more than 64 bits, else invalid syntax); a year of more than four digits, a month of 0 or less or above 12, a day without month and a day the month has not give their own texts in a fixed order; an instant that package time cannot read names the first part that cannot be read and what is left, the first part that is too large, or the day; a range gives the text of the date.", "quantifier": "all texts, all years of 64 bits, all months and days, all times of day", "why_tests_cant": "tests of the helpers look at whether there is an error for a handful of arguments, never at its text", "anchors": ["calendar/calendar.go:DaysInMonth", "calendar/calendar.go:DaysInMonthWithString", "common/ymd.go:YMDFromStrings", "common/ymd.go:YMDFromString", "common/ymd.go:YMDFromStringDate", "common/time.go:TimeWithYMD", "common/time.go:TimeWithYMDString", "common/range.go:StringRangeFromYMD"]}
{"id": "C86", "title": "How the server for the WebAssembly page starts", "statement": "For every list of arguments cmd/server-wasm either ends with a determined status and text on standard error, or asks the system to listen at a determined host and port. A port is any integer of 64 bits written as in a Go program (decimal, binary, octal or hexadecimal, with underscores between digits), a later flag replaces an earlier one, and reading stops at the first operand or at `--`. Host and port are joined by a colon: the address is good just when the host has no colon and no bracket, or is in brackets, and the port is from 0 to 65535; a host with a colon and without brackets, such as an address of IPv6, is always an error.", "quantifier": "all lists of arguments, all hosts, all texts for a port", "why_tests_cant": "there is no test of the server, and one would have to start it", "anchors": ["cmd/server-wasm/main.go:main"]}
{"id": "C87", "title": "Compliance with the EDTF specification of 2019", "statement": "For every expression of the specification of 4 February 2019, feature by feature, it is determined whether ParseString reads it, whether the record then begins and ends where the specification says and with the uncertain, approximate, open, unknown and set flags it asks for, and whether the program panics instead. All of Level 0 is read as specified. The features read completely as specified are the three of Level 0, unspecified digits from the right and negative years of Level 1, and qualification of individual components of Level 2; every other feature has expressions that are refused or get another meaning, so that the README's claim of compliance with Levels 1 and 2 does not hold. Of the 64 examples in the specification 51 are read as specified.", "quantifier": "all expressions of the 17 features of the specification, with dates, numbers, lists of members and qualifiers of any size", "why_tests_cant": "each feature has infinitely many or very many expressions, and the tests list some of the specification's examples, mostly looking at whether there is an error", "anchors": ["parser/parser.go:ParseString", "level0/level0.go:ParseString", "level1/level1.go:ParseString", "level2/level2.go:ParseString"]}
{"id": "C88", "title": "What the web page shows", "statement": "For every text typed into the form of the web page (app/server/www), what the page shows is determined. Line ends are taken out of the text first. If the rest has a meaning, the page shows the JSON of the date, one field to a line and indented by two columns for each level, and that text read as JSON gives the date again: no number of it is too large for JavaScript. If the parser reports an error, the page shows a fixed sentence followed by a number, which is 21 more than the bytes of the text and of the error. If the parser panics, the page shows nothing, and it shows nothing for any later text. There is no other case.", "quantifier": "all texts typed, all sequences of texts", "why_tests_cant": "the page and the WebAssembly program have no tests; a test in a browser could try some texts, but not show that every date survives the numbers and the quoting of JavaScript", "anchors": ["cmd/parse-wasm/main.go:ParseFunc", "parser/parser.go:ParseString"]}
{"id": "C89", "title": "The labels of the ranges", "statement": "Each range of a result carries a text of its own (DateRange.EDTF). For every accepted string, the label of the start and the label of the end are themselves accepted by the parser, and the time from the first to the last moment of what the label denotes contains the range it labels (an open range is labelled with what denotes open, an unknown one with what denotes unknown).", "quantifier": "all accepted strings; no bounds", "why_tests_cant": "the tests never look at the labels of the ranges, let alone parse them again; that the label of every interval, set, season and grouping can be parsed is a statement about all strings", "anchors": ["common/span.go:DateSpanFromYMD", "common/span.go:DateSpanFromEDTF", "common/range.go:OpenDateRange", "level0/date_and_time.go:ParseDateAndTime", "level2/set_representation.go:ParseSetRepresentations", "parser/parser.go:ParseString"]}
{"id": "C90", "title": "What the server answers", "statement": "For every request target that begins with a slash, the server of cmd/server-wasm answers as follows: a target with blanks, control characters or a broken escape is refused; a path with detours (empty elements, '.' or '..') is redirected to the straight path to the same place, and '/wasm' to '/wasm/'; a straight path is looked up among the embedded files (the programs below '/wasm/', the page elsewhere), where a path that ends in 'index.html' is redirected to its directory, a directory without its slash and a file with a slash are redirected to the right form, and everything else is not found. Nothing but the embedded files is served. Following the redirections of a path of plain characters ends after four at most. The page is there at '/' and nowhere else, and what it refers to is found from there.", "quantifier": "all request targets (bytes) that begin with a slash, all sets of built programs; C90_ends: all paths of characters that need no escape, any query", "why_tests_cant": "there is no test of the server; that no path with dots or escapes leaves the embedded files and that no path redirects forever are statements about infinitely many paths", "anchors": ["cmd/server-wasm/main.go:main"]}
{"id": "C91", "title": "The same time, written differently", "statement": "Two results mean the same time if their first boundaries and their last boundaries agree in the second, or are both open or both unknown. An accepted interval begins when its left side alone begins and ends when its right side alone ends, except exactly for days with an unspecified last digit ('1985-04-1X' alone is the whole month) and for an open or unknown end after a month or a day, which is dropped. So a text and the interval from it to itself mean the same time unless it is such a day. A set begins when its least member alone begins and ends when its greatest member alone ends, or is open there; the order of its members, members written twice and two dots instead of a comma change nothing in the result but the text, and a date in brackets means the same time as the date. If both a text and the text with 'Y' before it are accepted, they mean the same time. If a text that ends in '-XX' is accepted, the text without that component is accepted too and means the same time. A text without its qualifiers is accepted and means the same time, except exactly a day with a qualifier at its end ('2004-06-11%'), which is read as its month.", "quantifier": "all pairs of accepted texts of these forms; no bounds", "why_tests_cant": "each test looks at one text; that two ways to write the same time give the same result is a statement about all pairs of texts", "anchors": ["parser/parser.go:ParseString", "level1/extended_interval.go:ParseExtendedInterval", "level0/time_interval.go:ParseTimeInterval", "level2/set_representation.go:ParseSetRepresentations", "level1/letter_prefixed_calendar_year.go:ParseLetterPrefixedCalendarYear", "level1/unspecified_digits.go:ParseUnspecifiedDigits", "level1/qualified_date.go:ParseQualifiedDate", "level1/season.go:ParseSeason", "level2/qualification.go:ParseGroupQualification"]}
{"id": "C92", "title": "How long accepted texts are", "statement": "An accepted text of more than 29 characters is a set in brackets, a season by its name, a year with an exponent or a year with significant digits, and 29 characters are reached by an interval of two signed days with three qualifiers each. Of each of those four kinds there are accepted texts longer than any given number: members of a set can be repeated, blanks after the name of a season too, and zeros can be put in front of an exponent or of a number of significant digits.", "quantifier": "all texts; all four kinds and all lengths", "why_tests_cant": "no finite set of tests shows that every longer text of the other kinds is rejected, or that there is no greatest length for the four kinds", "anchors": ["parser/parser.go:ParseString", "parser/parser.go:Matches", "level2/set_representation.go:ParseSetRepresentations", "level2/significant_digits.go:ParseSignificantDigits", "level2/exponential_year.go:ParseExponentialYear", "level1/season.go:ParseSeason"]}
{"id": "C93", "title": "Capital and small letters", "statement": "Let a text be accepted, and change some of its letters between capital and small. The new text is accepted exactly if nothing changed, or the text is a season by name, or it is a year with an exponent and its 'S' (if any) stays a capital, or it is a year and a month in digits with a day that has unspecified digits. And whenever both texts are accepted, their results have the same time, the same level and the same feature.", "quantifier": "all accepted texts and all texts that differ from them in capital and small letters", "why_tests_cant": "each text of n letters has 2^n such variants, and the rule differs between the patterns; only a proof shows that no accepted text has a variant of another meaning", "anchors": ["parser/parser.go:ParseString", "level1/season.go:ParseSeason", "level1/letter_prefixed_calendar_year.go:ParseLetterPrefixedCalendarYear", "level2/exponential_year.go:ParseExponentialYear", "level2/significant_digits.go:ParseSignificantDigits"]}
{"id": "C94", "title": "Every second can be written, and in order", "statement": "Every second of the years -9999 to 9999 has exactly one text in universal time ('YYYY-MM-DDThh:mm:ssZ', with a sign for negative years; a sign before 0000 aside), and no other second has one. It lies within a written year, month or day exactly if the text of that date is the beginning of its text. From year 0 on the order of these texts is the order of the seconds; before year 0 the years are in the reverse order and the seconds within a year are as written. IsBefore and IsAfter tell the order of any two seconds in any zones, where a second is both before and after itself, and that of a second and a date. A text without a zone means the same as with 'Z'; every text of a second is one without a zone followed by a zone, and from year 0 on its offset is subtracted. A sign before the year is applied last: two texts for the same second also give the same second with a sign in front.", "quantifier": "all seconds of the years -9999 to 9999, all texts of times of day, all pairs of them, all zones", "why_tests_cant": "there are 6*10^11 such seconds, and the order is about all pairs of texts", "anchors": ["level0/date_and_time.go:ParseDateAndTime", "common/year.go:TimeToBCE", "parser/parser.go:ParseString", "cmp/before.go:IsBefore", "cmp/after.go:IsAfter"]}
{"id": "C95", "title": "Dates can be put in order", "statement": "IsBefore orders texts as intervals of time: if a is before b and c is before d, then a is before d or c is before b. Every list of texts whose last second is not before their first can be arranged so that no text is before an earlier one, except that two texts for the same single second are before each other; and if each text of a cycle is before the next, all stand for the same single second. Every accepted text other than the empty text, '..', an interval and a set has a first and a last second in this order, and so has every set with both unless a member has a sign. For intervals and signed sets it fails: '2005/2003' is before itself, and '{-2001,-2000}' ends before it starts.", "quantifier": "all texts, all finite lists of texts", "why_tests_cant": "the statements are about all lists and all cycles of texts, and about every accepted text", "anchors": ["cmp/before.go:IsBefore", "edtf.go:Lower", "edtf.go:Upper", "parser/parser.go:ParseString", "level2/set_representation.go:ParseSetRepresentations"]}
{"id": "C96", "title": "Typing errors are noticed", "statement": "Consider texts written with digits, X, x, qualifiers, '-', '/', ':', 'T', 'Z', '+' and '.', so no sets, letter years, significant digits or named seasons. Without its qualifiers and with every digit made the same, an accepted text of this kind is one of eighty, and each of them occurs. Therefore: if a character other than a qualifier is left out of an accepted text, or added to one, the result is refused, unless it is the sign before a year, a slash at the beginning or at the end, or a 'Z' at the end. If two neighbouring characters are exchanged, the result is refused unless both are digits. If one is replaced by another, the result is refused unless both are digits, or it is the sign of an offset, or the first character is changed between sign and slash. Each of these exceptions occurs.", "quantifier": "all texts over these characters, all positions and all replacements", "why_tests_cant": "there are more than 10^26 such texts, and every position and character of each would have to be tried", "anchors": ["parser/parser.go:ParseString", "level0/level0.go:IsLevel0", "level1/level1.go:IsLevel1", "level2/level2.go:IsLevel2"]}
{"id": "C97", "title": "The fewer digits are given, the longer the time", "statement": "Let some digits of a text be written as X, and let both texts be accepted. Then the text with fewer digits begins no later and ends no earlier than the other one, so if it is before or after a date, the other one is too. This holds for dates alone and for intervals, with and without qualifiers. There are three exceptions, and each is a defect or a clash of notation that occurs in every year: a month \"0X\" is read as October to December, so every month from January to September is before it; a day of which only the last digit is unspecified is read as its whole month when it stands alone; and the number of a season or of another part of the year is no month, so winter ends after its year.", "quantifier": "all accepted texts with a first and a last second, and all choices of digits to leave out", "why_tests_cant": "each text has up to 2^16 choices of digits and there are more than 10^16 intervals", "anchors": ["common/range.go:StringRangeFromYMD", "level1/unspecified_digits.go:ParseUnspecifiedDigits", "level2/unspecified_digit.go:ParseUnspecifiedDigit", "parser/parser.go:ParseString", "cmp/before.go:IsBefore", "cmp/after.go:IsAfter"]}
{"id": "C98", "title": "The calendar repeats after 400 years", "statement": "Let the first two digits of the year of an accepted text be replaced by two others that differ by 4k. Then the new text is accepted, and its first and its last second are those of the text, moved by exactly k times 146097 days (backwards if the year has a sign). This holds for dates, times of day in any zone, seasons, other parts of the year, unspecified digits, significant digits and qualified dates; and for intervals if both sides are moved, where an open or unknown side stays as it is. So the answers of IsBefore and IsAfter for two texts moved alike are the same. Exceptions: years with S3 or more; the last winters, which end after year 9999 or in year -0999; and, in years below 1000, significant digits, two parts of the year and some negative seasons, months and days.", "quantifier": "all accepted texts with one year, all intervals, all k", "why_tests_cant": "texts with all days, all times of day, all zones and all qualifiers, in pairs, are more than 10^20", "anchors": ["parser/parser.go:ParseString", "common/span.go:DateSpanFromEDTF", "common/time.go:TimeWithYMD", "level1/season.go:ParseSeason", "level2/sub_year_grouping.go:ParseSubYearGroupings", "level2/significant_digits.go:ParseSignificantDigits", "cmp/before.go:IsBefore", "cmp/after.go:IsAfter"]}
{"id": "C99", "title": "Comparisons see only the nearest ends", "statement": "What IsBefore and IsAfter say about an accepted text depends only on its first second, its last second and whether it is '..': in the first place, 'before' depends on the last second and 'after' on the first second; in the second place it is the other way round. Conversely, if no comparison tells two texts with a first and a last second apart, these seconds are the same. So an interval is before a date exactly if its right side is, and after a date exactly if its left side is; a date is before an interval exactly if it is before the left side, and after it exactly if it is after the right side; a date is between two others exactly if it is neither before nor after their interval; and a set is compared by its least and its greatest member. Exceptions, exactly: sides such as '1985-04-1X' (another time alone), months and days with an open or unknown end, and '..' in the first place, where the interval gives an error.", "quantifier": "all accepted texts, intervals and sets, compared with all texts, accepted or not", "why_tests_cant": "the statements are about all pairs of texts, and the converse is about what no comparison can tell", "anchors": ["cmp/before.go:IsBefore", "cmp/after.go:IsAfter", "cmp/between.go:IsBetween", "edtf.go:Before", "edtf.go:After", "edtf.go:Lower", "edtf.go:Upper", "parser/parser.go:ParseString"]}
{"id": "C100", "title": "The times that texts can stand for", "statement": "An accepted text without a colon lasts whole days: its first second, if it has one, is the first second of a day, and its last second the last second of a day, of the years -9999 to 9999; so it lasts a whole number of days, and 'before' between two such texts compares days. An accepted text with a colon lasts one second. The pairs of a first and a last second that texts can have are exactly these: one second from the beginning of year -9999 to 25 hours after the end of year 9999, or one of the first 25 hours of year -10000 (but no other second of that year); or from the beginning of any day to the end of any day of the years -9999 to 9999.", "quantifier": "all texts and all pairs of seconds", "why_tests_cant": "the statement is about all texts at once: that no text, of any kind and length, has another time, and that every pair of days is reached", "anchors": ["parser/parser.go:ParseString", "common/span.go:DateSpanFromEDTF", "level0/date_and_time.go:ParseDateAndTime", "level0/time_interval.go:ParseTimeInterval", "cmp/before.go:IsBefore", "edtf.go:Lower", "edtf.go:Upper"]}
{"id": "C101", "title": "The marks of a text are those of its result", "statement": "Marks are neither lost nor invented, with exactly these exceptions. A result is uncertain somewhere if and only if the text is accepted and has '?' or '%', and approximate if and only if it has '~' or '%', unless that qualifier comes last after a year and a month or a day. Outside intervals all boundaries have the same doubts about the same components; in an interval each side has its own. A result is open somewhere if and only if two dots are written at an end of the text or of a part of a set, unless they come after a month or a day. Outside brackets it is unknown somewhere if and only if the text is empty or a side is missing, unless it is the side after a month or a day. It is a choice if and only if the text begins with '[', and an inclusion if and only if it begins with '{', unless the set is open both ways; there are no other such flags. The flag for unspecified digits is never set, and the precision is that of the year unless 'X' is written; it is none exactly for boundaries without a time and for times of day.", "quantifier": "all texts", "why_tests_cant": "the statement is about every text of every kind, in both directions: no text whatever gets a mark that it does not have, and none loses one outside the named exceptions", "anchors": ["parser/parser.go:ParseString", "common/span.go:DateSpanFromEDTF", "common/span.go:dateSpanFromYMD", "level1/qualified_date.go:ParseQualifiedDate", "level1/season.go:ParseSeason", "level1/extended_interval.go:ParseExtendedInterval", "level2/qualification.go:ParseGroupQualification", "level2/qualification.go:ParseIndividualQualification", "level2/interval.go:ParseInterval", "level2/set_representation.go:ParseSetRepresentations"]}
{"id": "C102", "title": "Strings are bytes", "statement": "A Go string is a sequence of bytes. Every sequence is the UTF-8 text of exactly one string of characters, or breaks off after one. On UTF-8 texts the parser, Matches, the comparisons, the Unix ranges, the replacement of deprecated strings and the three command-line tools do, byte for byte, what the other properties say of the characters. All other bytes are refused and end no program: the error is 'invalid' with the Level 2 label if the text before the break starts like one of Level 2, otherwise 'unrecognized', and has the bytes in it unchanged. A comparison names the first of its dates that is not accepted; IsBetween does not notice such a cessation date if the date is before the inception date. The tools for parsing and matching stop at such an argument with status 1, after writing what comes before it; the tool for WASI writes a line and goes on; what counts as a flag is determined for arguments of any bytes.", "quantifier": "all sequences of bytes, all lists of arguments", "why_tests_cant": "there are infinitely many sequences of bytes that are not UTF-8, and the statement that everything is the same on UTF-8 is about every text", "anchors": ["parser/parser.go:ParseString", "parser/parser.go:Matches", "cmp/after.go:IsAfter", "cmp/before.go:IsBefore", "cmp/between.go:IsBetween", "unix/range.go:DeriveRanges", "deprecated.go:ReplaceDeprecated", "cmd/parse/main.go:main", "cmd/matches/main.go:main", "cmd/parse-wasi/main.go:main"]}
{"id": "C103", "title": "Every time has a normal form", "statement": "The date and time that a result shows at a boundary can be read again, and means the second that the result has there, unless that second is not of the years -9999 to 9999 (which only a time of day with an offset brings about); then it is refused. The normal form of a text is this date and time of its beginning if the text has a colon, and otherwise the interval from the day of its first boundary to the day of its last. Exactly the texts with a first and a last second have one. It stands for the same time; two texts have the same normal form exactly if they stand for the same time; a normal form that is understood is its own normal form, and no comparison tells it from the text. The texts that are their own normal form are the moments in universal time and the pairs of days, written in full, without a sign before the year 0000.", "quantifier": "all texts", "why_tests_cant": "the statement that two texts have the same normal form exactly if they mean the same time is about all pairs of texts of all features", "anchors": ["date.go:SetTime", "parser/parser.go:ParseString", "edtf.go:Lower", "edtf.go:Upper", "level0/date_and_time.go:ParseDateAndTime", "level0/time_interval.go:ParseTimeInterval"]}
{"id": "C104", "title": "What the single functions do with bytes that are no text", "statement": "On UTF-8 the parser of every feature and of every level, the function for spans and the helpers for ranges, days and the length of months say what they say of the characters, and the text of a result is the bytes given. All other bytes are refused, with an error that repeats them as they are, by every parser of a feature but that for seasons and by the parsers of Level 0 and Level 2. The parser for seasons reads the season in them, after which or before which there may be any bytes, and so does the parser of Level 1, which otherwise calls them an invalid extended interval. A span of such bytes is never returned: the error is about the side that is read first and is at fault, or about the whole if there are two strokes. A day is read from them only if they are any bytes without a hyphen before a day with a sign.", "quantifier": "all strings of bytes", "why_tests_cant": "the bytes after a season and before a sign are arbitrary, and tests use texts", "anchors": ["level1/season.go:ParseSeason", "level1/level1.go:ParseString", "level0/level0.go:ParseString", "level2/level2.go:ParseString", "common/span.go:DateSpanFromEDTF", "common/range.go:StringRangeFromYMD", "common/ymd.go:YMDFromString", "common/ymd.go:YMDFromStrings", "calendar/calendar.go:DaysInMonthWithString"]}
{"id": "C105", "title": "The helpers for years, months and days on every string of bytes", "statement": "For every string of bytes, UTF-8 or not, DaysInMonthWithString and YMDFromString return exactly one of the outcomes described: the pieces between the hyphens are taken, what stands before the sign of a year may be any bytes, and the first of year, month and day that is no decimal integer of 64 bits is reported, with its characters escaped and every byte that begins no character written as \\x and two hexadecimal digits, as out of range if it begins with a number of more than 64 bits and as invalid otherwise. The same holds of YMDFromStrings for every three strings of bytes; if one of them is not UTF-8 there is always an error.", "quantifier": "all strings of bytes, all triples of strings of bytes", "why_tests_cant": "there are infinitely many strings of bytes, and the order of the checks shows only in combinations", "anchors": ["calendar/calendar.go:DaysInMonthWithString", "common/ymd.go:YMDFromString", "common/ymd.go:YMDFromStrings"]}
{"id": "C106", "title": "ParseExponentialNotation on every string of bytes", "statement": "Every string of bytes is the name of an infinity (Inf or inf with or without a sign), a number (a sign, digits with or without a point, and an exponent to base 10 after e or E or to base 2 after p or P), or one of the strings of which an error is described, and only one of these. The names of infinities make ParseExponentialNotation panic; of the others the error is returned that is described. A number gives a year between -9999 and 9999, the error that it is not supported, or a panic, the last only if its exponent is very large. With at most 42 digits after the point (less the exponent), a number from N up to N + 1 - 2^-49 gives N, for every N up to 9999, and one from 10000 up to 2^62 is not supported. Of the strings that the parser passes on, it says what the parser says.", "quantifier": "all strings of bytes; all numbers with any digits, point and exponent", "why_tests_cant": "there are infinitely many strings and numbers, and rounding goes wrong only near the ends of intervals", "anchors": ["common/exponential.go:ParseExponentialNotation"]}
{"id": "C107", "title": "TimeWithYMD and TimeWithYMDString on every string of bytes", "statement": "For every date with a year of 64 bits and every string of bytes as the time of day, TimeWithYMD returns the instant if the bytes are a time in ASCII that fits, and otherwise the error of package time, in which every byte outside printable ASCII is written as backslash x and two hexadecimal digits, whether or not the bytes are UTF-8; it never panics. TimeWithYMDString does so once the three strings of bytes of the date have been read, and otherwise returns the error about these. Bytes that are not UTF-8 are always an error. For bytes that are UTF-8 both return what the model on texts returns.", "quantifier": "all dates with a year of 64 bits; all strings of bytes", "why_tests_cant": "there are infinitely many strings of bytes, and tests hardly ever use bytes that are not UTF-8", "anchors": ["common/time.go:TimeWithYMD", "common/time.go:TimeWithYMDString"]}
{"id": "C108", "title": "Which date every string of bytes is decoded to", "statement": "Every string of bytes is read as exactly one text, in which U+FFFD stands for each byte at which no character begins. Decoding the bytes gives a date if and only if that text is JSON and every member fits, and then the date that C72 describes; bytes that are UTF-8 give what their text gives, and two strings of bytes that are read as the same text give the same date. Any bytes without a quote, a backslash and control characters between quotes are accepted as the edtf of a date, which then is the text they are read as. Bytes that parse are the edtf of their date, and the JSON that is printed for it is decoded to the date again.", "quantifier": "all strings of bytes and all dates", "why_tests_cant": "there are infinitely many strings of bytes, and no test decodes bytes that are not UTF-8", "anchors": ["timestamp.go:UnmarshalJSON", "edtf.go:EDTFDate"]}
{"id": "C109", "title": "What every string of bytes makes of a timestamp", "statement": "Reading a timestamp from bytes first drops the quotes at both ends, however many there are. If the rest is a decimal 64-bit integer the timestamp becomes that number and there is no error. Otherwise there is an error, whose text quotes the rest with everything escaped that is not printable and says whether it is no number or out of range, and the timestamp keeps the value it had. What is written for a timestamp is ASCII and is read back, with or without quotes.", "quantifier": "all strings of bytes, all timestamps before the reading, all 64-bit integers", "why_tests_cant": "there are infinitely many strings of bytes, and no test reads a timestamp that fails or looks at the receiver afterwards", "anchors": ["timestamp.go:Timestamp.UnmarshalJSON", "timestamp.go:Timestamp.MarshalJSON"]}
{"id": "C110", "title": "The errors for texts that are no numbers show what the text was", "statement": "What is said of bytes that are no number is UTF-8 and consists of printable characters only, whatever the bytes are. Two strings of bytes of which the same is said are the same: a year that is no number can be told from the error, and so can what stands between the quotes of a timestamp.", "quantifier": "all strings of bytes", "why_tests_cant": "there are infinitely many strings of bytes, and no test looks at the texts of errors", "anchors": ["common/ymd.go:YMDFromStrings", "timestamp.go:Timestamp.UnmarshalJSON"]}
{"id": "C111", "title": "An error of the parser tells which string it is about", "statement": "Two strings of bytes for which the parser gives the same error are the same. (This is not so: what is proved is that an error that begins with \"Unrecognized\" shows the whole string byte for byte and so determines it, that an error that begins with \"parsing time\" determines it unless it is about the winter that ends in 10000, and that an error of the types of errors.go names the whole string unless its label is \"date\" or \"exponential notation\", and a part of the string unless this begins with a minus sign, is a grouping or has an exponent or significant digits; errors about days, seasons, and parts of longer strings are shared by different strings.)", "quantifier": "all strings of bytes; for errors about times and named strings, all strings", "why_tests_cant": "there are infinitely many pairs of strings, and no test looks at the texts of errors", "anchors": ["parser/parser.go:ParseString", "level0/date_and_time.go:ParseDateAndTime"]}
