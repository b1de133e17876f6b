# Formal model of go-edtf: design

## 1. Approach

The Go sources in /repo were read as text; nothing was built or run.  The Lean
model follows them function by function; each definition cites file and lines.

| Lean module (under `lean/Verif/`) | What it models |
|---|---|
| `Basic` | `Res` (value / error / panic), error kinds of `errors.go`, string literals as `List Char` |
| `GoStr` | `strconv.Atoi/ParseInt/Itoa/FormatInt`, `fmt %0Nd`, `strings.Split/HasSuffix/HasPrefix/Trim/Repeat/ToUpper`, `sort.Strings`, 64-bit wrap-around |
| `Regex` | regular-expression syntax tree, parser for the regex syntax the package uses, leftmost-first matcher with captures |
| `Patterns` | the pattern strings of `re/re.go`, concatenated as in `re/*.go`, the syntax trees used by the model, and kernel-checked proofs that each tree is what its pattern string parses to, up to re-association of sequences and alternatives; `LemmasFlat.compiles_submatch` proves that re-association changes neither what matches nor what is captured |
| `Calendar` | proleptic Gregorian calendar and `time.Time` in UTC as Unix seconds, `time.Parse` for the layouts used, `AddDate`, `Format(RFC3339)` |
| `Types` | `YMD`, `Precision`, `Date`, `DateRange`, `DateSpan`, `EDTFDate` and their methods, the constants, deprecated values, timestamps (`edtf.go`, `precision.go`, `date.go`, `timestamp.go`, ...) |
| `Common` | `common/*.go`, `calendar/calendar.go` |
| `BigFloat` | the part of `math/big.Float` that `ParseExponentialNotation` uses |
| `Level0`, `Level1`, `Level2`, `Parser` | the packages of the same name |
| `Cmp` | `cmp/*.go`, and `unix/range.go` in the namespace `Unix` |
| `Json` | what `encoding/json` writes and reads for the types of the package, as text: escapes, numbers, `omitempty`, `null`, case-insensitive names |
| `Cmd` | `cmd/parse`, `cmd/matches`, `cmd/parse-wasi`, with the part of the `flag` package they rely on |
| `Stderr`, `SpecStderr` | the three tools with what they write to standard error |
| `MessageCmp`, `SpecMessageCmp` | the comparisons, Unix ranges and deprecated strings with the texts of their errors |
| `SpecTree` | how the times of two written dates lie to each other, read off their texts |
| `Kit`, `MessageKit` | `tests/tests.go`: the helper with which the Go tests compare a date with what is expected, without and with the texts of its errors |
| `SpecKit` | what that comparison comes to: everything that can be wrong, in order, with its text |
| `Wasm` | `cmd/parse-wasm`, with `js.Value.String` and what becomes of the promise |
| `Page` | `app/server/www` (`index.html`, `javascript/index.js`): the form, `JSON.parse` and `JSON.stringify`, and what is seen of the result |
| `Tests` | about 1000 concrete evaluations of the model, generated by `tools/gentests.py` from the tables of the Go test files and `tools/tests_extra.txt` |
| `TestsReadme` | the sample outputs printed in README.md and the page seen in docs/images/edtf-parse-wasm.png, character for character, generated by `tools/genreadme.py`; they come from runs of the real program |
| `Spec` | the independent specification: calendar facts, written forms of dates, what each EDTF form denotes |
| `SpecLang` | the specification of the accepted language: the dates that can be read and the strings that parse |
| `SpecDenote` | the specification of the result: which record each accepted string denotes |
| `SpecForm` | the written forms that each single test is to recognise |
| `SpecDirect` | the specification of the other exported parsers: the span of any text, the parser of each feature and level, and the order of the labels |
| `SpecCmp` | the specification of comparisons and Unix ranges on all strings, and of the strings without a bound |
| `SpecYmd`, `SpecRange` | the specifications of the helpers of packages common and calendar, and of StringRangeFromYMD, on all inputs |
| `SpecJson` | the grammar of JSON and the decoding of a date, as relations |
| `SpecTool` | the JSON text of a date, and the runs of the tools on all arguments |
| `SpecMethod` | the methods of a date with any contents |
| `Text`, `SpecText` | the texts of errors (`errors.go`) and the `String` methods; what can be told from them |
| `Message`, `SpecMessage` | the parser with the texts of its errors, including those of `strconv`, `time` and `math/big`; what the error for each string says |
| `MessageDirect`, `SpecMessageDirect` | the parsers that only callers outside use, with the texts of their errors; what each exported parser says |
| `SpecMessageYmd` | what the helpers for years, months, days and instants say: how `strconv` and `time` quote, why a text is no number, and where `time.Parse` stops |
| `Server` | cmd/server-wasm up to the network: flags with values, numbers as `strconv.ParseInt` with base 0 reads them, the address |
| `SpecServer` | the same as relations: numbers written as in a Go program, arguments, hosts with and without brackets, how the server starts |
| `Serve` | what the server of cmd/server-wasm answers: request targets, `path.Clean`, `ServeMux` (as of Go 1.21, which go.mod asks for), `StripPrefix`, `FileServer` over the embedded files |
| `SpecServe` | the same as relations: escapes, elements of paths, the walk along them, the tables of the files, answers, and the locations that a browser follows |
| `LemmasServe`, `PropsServe` | C90 |
| `SpecSame` | results that mean the same time, and the texts for which a rewriting changes the time |
| `LemmasSame`, `LemmasSame1`, `LemmasSame2`, `LemmasSame3`, `PropsSame` | C91 |
| `SpecLength` | the four kinds of text that have no greatest length |
| `PropsLength` | C92 |
| `SpecCase` | texts that differ in capital and small letters |
| `LemmasCase`, `PropsCase` | C93 |
| `SpecClock` | texts that stand for one second |
| `PropsClock` | C94 |
| `SpecSort` | texts with a first and a last second; chains of comparisons |
| `PropsSort` | C95 |
| `SpecTypo` | the eighty outlines of texts |
| `PropsTypo` | C96 |
| `LemmasVague` | for C97: leaving out digits of a year, a month, a day |
| `PropsVague` | C97 |
| `SpecPeriod` | for C98: texts moved by 400 years, and the texts for which that changes something else |
| `LemmasPeriod` | for C98: the calendar, years and dates moved by 400 years |
| `PropsPeriod` | C98 |
| `SpecNear` | for C99: the first and the last second of a text, texts that no comparison tells apart |
| `PropsNear` | C99 |
| `SpecWhole` | for C100: the first and the last second of a day, the seconds that can be written |
| `PropsWhole` | C100 |
| `SpecMark` | for C101: the boundaries of a result, qualifiers and dots at the end of a month, the parts of a set |
| `PropsMark`, `PropsMark2`, `PropsMark3` | C101 |
| `Bytes` | the parser, the comparisons, the ranges and the tools on bytes |
| `SpecBytes`, `LemmasBytes`, `PropsBytes`, `PropsBytes2` | C102: where bytes stop being UTF-8 and what is said of them |
| `SpecNormal`, `PropsNormal` | C103: reading back the moments of a result, normal forms |
| `BytesDirect` | the parsers of single features and levels, spans and the helpers for days, on bytes |
| `SpecBytesDirect`, `LemmasBytesDirect`, `PropsBytesDirect`, `PropsBytesDirect2` | C104: what these do with UTF-8 and with other bytes |
| `SpecBytesYmd`, `PropsBytesYmd` | C105: the helpers for days on every string of bytes |
| `FloatText` | `ParseExponentialNotation` on every string of bytes: the scanner and the arithmetic of math/big.Float that it needs, with fractions, negative and binary exponents, infinities and errors |
| `SpecFloat`, `LemmasFloat`, `LemmasFloat2`, `PropsFloat`, `PropsFloat2` | C106: which strings are numbers, what is said of the others, and which year a number gives |
| `TimeBytes` | `TimeWithYMD` and `TimeWithYMDString` on every string of bytes |
| `SpecTimeBytes`, `LemmasTimeBytes`, `PropsTimeBytes`, `PropsTimeBytes2` | C107: the instant or the error text for every string of bytes, and agreement with the model on texts |
| `JsonBytes` | decoding a date from bytes: the scanner of encoding/json byte by byte, and the strings read from their bytes |
| `SpecJsonBytes`, `LemmasJsonBytes`, `LemmasJsonBytes2`, `PropsJsonBytes`, `PropsJsonBytes2` | C108: what is decoded from every string of bytes |
| `TimestampBytes` | the methods of Timestamp for JSON on bytes, with the value afterwards and the text of the error |
| `SpecTimestampBytes`, `PropsTimestampBytes` | C109: what every string of bytes makes of a timestamp |
| `Printable`, `SpecPrintable`, `LemmasPrintable` | which characters strconv prints as they are: a table of those for the model, one of the others for the specification, and the proof that together they cover everything once |
| `PropsQuoted` | C110: the errors for texts that are no numbers show what the text was |
| `PropsTold` | C111: which errors of the parser tell which string they are about |
| `SpecStandard` | the EDTF specification of 4 February 2019 (docs/edtf-spec-20190204.pdf): the expressions of its 17 features (`Term`), which of them belong to it (`ok`), and what their records have to say (`Honoured`); then which are supported, taken, or make the program panic |
| `SpecPage` | the lines of a JSON document on the page, and the text that a form field holds |
| `SpecLabel` | when a range lies within what its label denotes, and the strings with a label that does not name its range |
| `Utf8` | strings as bytes: Go's reading of UTF-8, and the parser on bytes |
| `SpecRe` | the ways to match a regular expression, and the order of preference between them |
| `SpecFail` | the specification of failure: for each string that is not accepted, which error it gets, or that the parser panics |
| `Lemmas*` | helper lemmas |
| `Props*` | the property theorems, each beside a concrete `example` |

Outside `lean/`: `tools/mkmanifest.py` and `tools/claim.py` write MANIFEST.json,
`tools/axioms.py` writes section 5, `tools/mutate.py` runs the wrong programs
of `seeded/mutants.py` (log in `seeded/LOG.jsonl`).

Strings are lists of Unicode code points (C78 and C102 justify this for the parser, the comparisons, the ranges and the tools).  Every exported function that can
panic in Go returns `Res`, with `panic` as a separate outcome.  Nil pointers
are `none`.

Regular expressions are not transcribed by hand: the pattern *strings* are in
the model and the syntax trees used by the matcher are proved (by kernel
evaluation) to be the result of parsing them, so that anchoring, alternation
precedence and `(?i)` scope come from the strings themselves.

Calendar facts are stated without the model's own day arithmetic: `DayCount f`
says that `f` is 0 on 1970-01-01, grows by one from each day of a month to the
next, and continues from the last day of a month to the first of the next.
Theorems about instants are stated for every such `f`; there is exactly one.

## 2. Properties

Each line: what is modelled, how it is proved.  "Violated" means that reading
the code shows the property to be false; then the negation is proved with a
concrete witness, together with theorems that say exactly what the code does
instead; a `_partial` suffix marks theorems that cover less than the property.

- **C01–C04** (dates). `parseString` on the written form of an arbitrary existing date with symbolic digits. The complete result record is computed (all four boundary dates, texts, flags, level, feature). No input is sampled.
- **C05** (missing days). Same machinery, error outcome for all days 01–31 beyond the month length, positive and negative years, and the converse.
- **C06** (date and time). Symbolic date, time and offset; the complete record. `C06_rejects` and `C06_needs_day` cover every other string of the pattern.
- **C07** (negative years with time). Violated when the offset carries the UTC reading over a year boundary: the code parses the time as a positive year in UTC and then flips the year. `C07_offset_partial` says that the result is right exactly when the shifted reading stays in its year.
- **C08** (intervals). Complete record for every two existing dates; `C08_bounds` relates it to the two dates parsed alone.
- **C09** (order of intervals). Violated ("2008/1964"); `C09_order_partial` says exactly which accepted intervals are in order.
- **C10, C11, C12, C14** (source, Matches, validity, unrecognized). All strings, by analysis of the dispatch chains; C11 needs that the dispatch of every level covers its own pattern or fails in the same way.
- **C13** (whatever is valid is understood). Violated: `re.Level2` has no end anchor and `(?i)` leaks through the alternation. Holds for level 0 (`C13_level0_partial`); `C13_exact_partial` says for which valid strings it holds, in the terms of C62 and C63.
- **C15** (no panic). Violated: "1950S5" (slice bounds), "Y1E2000000000" (infinite `big.Float`). `C15_sig_partial` is exact for significant digits; `C15_only_partial` says that no other kind of string panics.
- **C16, C17** (qualified dates, open intervals). Violated as soon as a month is written, because the season pattern is anchored on the left only and is tried first. Exact results for both cases.
- **C18** (seasons). Exact for every year -9999..9999 and both spellings; violated at the winter of -1000, and the years -999..-1 are errors.
- **C19** (groupings). Exact for every code and year; December-to-February groupings of 0000–0998 and 9999 are errors.
- **C20, C21** (unspecified digits). `Spec.Reading` says which calendar days an X-date may stand for. Both are characterised exactly (`C20_exact_partial`, `C21_exact_partial`), with witnesses where they fail.
- **C22** (letter-prefixed years). All digit strings, with and without sign.
- **C23** (exponential years). `BigFloat` arithmetic is proved exact below 2^63; wrap-around and panic inputs are exhibited above it.
- **C24** (significant digits). The code counts from the right; exact behaviour for all inputs in `C24_*`.
- **C25, C26** (sets). The comparison is by text; the bounds of every closed set are given (`C25_text_order_partial`), and equal the earliest and latest member for years 0000–9999 (of one precision for the upper bound); `C25_lower_exact_partial` and `C25_upper_exact_partial` say exactly when. Every open shape is covered in C26.
- **C27, C28** (level 2 qualifiers). Complete record for every combination of qualifiers; converse theorems say that nothing else is reported with these features.
- **C29** (level 2 intervals). Each range depends on its own endpoint only; the bounds and flags are those of the endpoint; converse.
- **C30, C31, C33** (open/unknown, well-formedness, year range). Invariants over all strings, by structural analysis of the span functions.
- **C32** (lower not after upper). Violated for some sets with negative years (`C32_sets_written_partial` says which, `C32_sets_exact_partial` more plainly for sets without "-0000"); proved for all other strings.
- **C34–C38** (comparison, ranges). Order reasoning over `Int` timestamps, all dates / all strings. C35 is violated for instants (the comparison is not strict).
- **C39, C40** (days in month, YMD strings). Arithmetic plus the time model, all 64-bit years.
- **C41** (flags). Bit-vector algebra by extensionality.
- **C42** (JSON). The encoder produces text and the decoder reads text; decoding the encoding of any date with 64-bit integers gives the date back, hence for every parsed date; the texts themselves are also stated literally.
- **C43** (errors). Violated: `NotSet()` returns the not-implemented error.
- **C44** (deprecated values). All strings.
- **C45** (timestamps). Round trip for all 64-bit integers. The accepted language is characterised and is larger than stated (unbalanced quotes, leading plus).
- **C46** (precision). Violated: precision is YEAR for every date without X digits; exact precision table for the rest.
- **C47** (sign flips). Arithmetic, with the one exception -2^63 which no parser produces.
- **C48–C50** (the tests IsExtendedInterval, IsSeason, IsSetRepresentation). Violated: constantly true; prefixes/suffixes accepted; brackets need not match. All three are characterised exactly.
- **C51–C53** (command-line tools). Induction over the argument list. C51 as stated is violated by arguments that look like flags.
- **C54** (accepted language). Soundness by following each recogniser and parser function (`acc_level0/1/2`), completeness constructor by constructor.
- **C55** (exact results). Each constructor of `Denotes` is the result of the parser (`denotes_sound`), each accepted string denotes a record (`accepted_denotes`), and the parser has one result; with C54 this gives both directions.
- **C56** (test helper). Every parsed date has four boundaries (C31), so that the checks are a conjunction. Violated as stated: flags are compared by a common bit, and not at all when none are expected; the instant 0 and the empty text are not compared. The exact verdict is proved.
- **C57** (WebAssembly). Fulfilment, rejection and crash are characterised exactly. Violated as stated: the reason of a rejection is a number of bytes, and a call without argument or a string on which the parser panics ends the program.
- **C58–C60** (the tests of single features). Exact: every pattern is compared with a written description of its form in `SpecForm` (places, marks, digits), without any pattern in the statement. A day or hour need not exist for the form to be met.
- **C61** (the tests of the levels). Level 0 is exact. Violated for Levels 1 and 2: a small `x` passes for `X` at Level 1, and Level 2 holds of every string that *begins* with one of its forms, so of anything after four digits. The sets of strings are characterised exactly.
- **C62** (errors). `Spec.Fails` lists the cases: for each the kind, the label and the quoted text of the error. `C62_error` says that these and no others are returned.
- **C63** (panics). `Spec.Panics` is exact: infinite exponential years, with the roundings of math/big written as relations, and significant digits beyond the length of the year. `C63_three`: accepted, failing and panicking strings are all strings, without overlap.
- **C64** (spans). `Spec.SpanText` and `Spec.SpanFails` together describe all texts; a text has at most one span and then no error.
- **C65** (direct calls). `Spec.SpanParser`: the span of the string itself, or the error of the feature. Letter, exponential, significant, set and time parsers agree with `ParseString` on their forms, which C54, C55, C62 and C63 describe. The season parser ignores what follows a month or precedes a name; the grouping parser reads 21 to 24 like 25 to 28 and refuses 10 to 12. The parsers of the levels take the first form of a list.
- **C66** (Matches). The order of the labels is a list of written forms; the errors are exact.
- **C67** (comparisons on all strings). `SpecCmp` reads the outcome from the record that a string denotes (C55) and from its error or panic (C62, C63); both directions are proved for IsAfter, IsBefore, IsBetween and DeriveRanges.
- **C68** (missing bounds). By cases over the specification of the result: a bound is absent only in the listed forms, and in all of them.
- **C69** (helpers on all inputs). `SpecYmd` says with `Decimal` and `monthLen` alone what each helper returns; both directions are proved. The instant is proved by inverting time.Parse for its layout (every accepted text is a padded date and a time of day). Fractions of a second, which time.Parse also reads, are dropped: instants are whole seconds.
- **C70** (StringRangeFromYMD). Year, month and day are read separately as texts; the last day of a month exists exactly if year and month can be read. Every text either has its two dates or one of the five errors.
- **C71** (reading JSON). The grammar is a relation between values and texts; the scanner finds exactly the value, by induction on the text with fuel, and the nesting limit of encoding/json is part of the statement.
- **C72** (decoding). The members are applied one after the other to the zero date; the specification is a relation for each type, and both directions are proved for all texts.
- **C73** (JSON text). The text is given by a few short functions on texts; equality for every record, no matter how it was made.
- **C74** (tools). What is left after the flags, then the texts one after the other; the outcome of each argument comes from C54, C55, C62, C63 and C66. The promise of parse-wasm likewise.
- **C75** (methods). Nil pointers, missing timestamps and the wrap-around of `time.Unix` are all in the statement.
- **C76** (matcher). `SpecRe` defines the ways to match with the list of choices made, and a preference between lists (at the first difference, the preferred branch). The matcher is proved to enumerate exactly these ways, in this order. Case folding is stated by a folding function and holds for ASCII classes.
- **C77** (texts). Unique reading of printed texts: every printed part can be cut off from what follows. The labels come from C62.
- **C78** (characters). The classes of all patterns are checked against the alphabet; the converse by one accepted string for every character. Reading and writing UTF-8 are proved inverse; a byte that begins no rune is read as U+FFFD, which is outside the alphabet.
- **C79** (texts of errors). The parser is repeated with the text of every error; forgetting the texts gives the parser back. Which text a date, a time, an interval, a set or an exponential year gets is stated from its written form, both ways.
- **C80** (standard error). The tools are repeated with what they write to standard error; the rest of a run is unchanged (C80_run). The text is found from the flags, or from the first argument that fails (C79, C66).
- **C81** (texts of the comparisons). IsAfter, IsBefore, IsBetween, DeriveRanges and ReplaceDeprecated are repeated with the texts of their errors (`MessageCmp`, C81_forget); the texts are found from the strings by means of `ErrorText` (C79) and of the strings without a bound (C68). The second string is called the inception and the first the cessation, whatever is compared, and the reason for a missing bound is that of finding 4.
- **C82** (tree of dates). A date is understood as a stretch of time (`Lasts`), and stretches are compared by means of the texts alone: inside, apart or the same according to whether one text is the beginning of the other. A year, a month or a day as written contains each second of the years -9999 to 9999 exactly once (C82_tiles), without gaps (C82_next), and a coarser date is the sum of its finer ones (C82_parts). C82_order and C82_order_negative explain finding 11 on sets: texts are sorted, and for negative years the order of texts is the wrong way round.
- **C83** (texts of the test helper). `SpecKit.wrongs` lists everything that can be wrong with a date in the order in which it is looked for, each with its text, or a panic for a missing boundary; the outcome of TestDate is that of the first entry that holds (C83_outcome, C83_parsed). C83_missing: a date with a missing boundary never passes.
- **C84** (texts of the exported parsers). `SpecMessageDirect.SpanErrorText` is what the error for the span of a text says: that of its type, or for a plain error the `DateText` of the first side that is wrong. C84_span, C84_level0/1/2, C84_extended, C84_same, C84_season, C84_grouping and the two `_only` theorems give the text for every string and every parser; C84_all1 and C84_all2 say which parser speaks for a level; C84_forget ties the twins to the functions of C65.
- **C85** (texts of the helpers). `SpecMessageYmd.NoInt` is what `strconv.Atoi` says of a text that is no integer, `DaysComplaint` what is said of a month without days, `YmdSays` what is said of three texts, in the order of the checks, and `Stops` where `time.Parse` stops in a layout: at a part that cannot be read, at one that is too large, or at extra text. C85_days, C85_days_text, C85_ymd, C85_ymd_text, C85_ymd_record, C85_range, C85_instant and C85_instant_text give the text for all arguments; C85_forget ties the twins to the functions of C69.
- **C86** (the server). `SpecServer.PortText` and `NoPort` say which texts are integers for package flag and why others are not, `ServerArgs` what the arguments make of host and port, `HostName` and `HostFault` which hosts can stand before a colon and a port, and `Starts` puts them together. C86_port, C86_flags and C86_starts are equivalences for all inputs; C86_ipv6 is finding 36. Whether the system can listen at the address is left out; what is served is C90.
- **C87** (compliance). README.md:3 says that the package is compliant with Levels 0, 1 and 2 of the specification of 2019. `SpecStandard.Term` has the expressions of the specification, one constructor for each heading, written from the document and not from the code; `Term.Honoured` says at which seconds the record has to begin and end and with which flags. C87_exact, C87_taken, C87_wrong and C87_panics are equivalences for all expressions: read as specified, read at all, read with another meaning, panic. C87_level0 is compliance with Level 0, C87_features says which features hold completely, C87_negation that Levels 1 and 2 do not, and C87_examples which of the specification's own examples are read as it says. Where the document can be read in two ways only the expressions it clearly has are taken up (listed at the top of `SpecStandard`). Nothing is asked of the months of a season, which the document does not give, and of the precision of dates. For significant digits the words of the document are followed ("the number of significant digits"); its second example ('Y171010000S3' is 171010000 to 171010999) says something else, and is refused by the code.
- **C88** (web page). C88_entered (the field), C88_date (when a document is shown, and its lines), C88_copied (the document read as JSON gives the date), C88_error (when a message is shown, and its number), C88_nothing (when nothing is shown; the branch "Unable to parse" of index.js:27-32 is never taken), C88_session (one text after the other). The layout is specified by blocks of lines, each moved to the right as a whole, and the code passes an indentation down; C88_copied goes through the reader of C71 and C72.
- **C89** (labels; `partial`, the code violates the full statement). C89_labels_partial (for every accepted string: both labels name their ranges if and only if the string is none of `Unnamed`: '..', a time of day, an interval with an end that is not accepted alone, a set of several members with an open side), C89_interval (each end of an interval separately: its label names it exactly when the text of the end is accepted), C89_negation. `Named` speaks of the results of `ParseString` on the string and on the label and of their timestamps only.
- **C90** (what is served). `SpecServe.Target` says what a target means, `walk` and `straight` where a path with detours leads, `wwwTable` and `wasmTable` what there is, `Answers` puts them together. C90_answers is an equivalence for all targets that begin with a slash and for any set of built programs. C90_contained: only the embedded files are served. C90_ends: for plain paths (no escapes) and any query at most four redirections, with an example that has four. C90_page: the page is at '/' and nowhere else; C90_parts: what it refers to is found from there. See finding 40.
- **C91** (the same time). `SpecSame.SameStart` and `SameStop` compare the first and the last boundaries of two results, whatever their ranges are labelled and flagged. C91_interval and C91_itself are equivalences: the exceptions `TenDays`, `EarlyDays`, `MonthEnded` and `DayEnded` are exact, see finding 41. C91_set, C91_alike, C91_single, C91_dots: sets. C91_letter: the letter 'Y'. C91_any: a last component 'XX' can be left out. C91_qualifiers is an equivalence: only `QualifiedDay` changes its time with its qualifier. All need only that the texts are accepted.
- **C92** (lengths). `SpecLength.Unbounded` names four kinds of text by their outer shape. C92_bounded: any other accepted text has at most 29 characters, and the example beside it shows that 29 are reached. C92_unbounded: each of the four kinds has accepted texts longer than any number.
- **C93** (capital and small letters). `SpecCase.Alike` relates two texts that differ in capital and small letters only. C93_exact is an equivalence: for an accepted text it says which of the texts alike it are accepted. C93_same: if both are accepted they have the same time, level and feature. See finding 42.
- **C94** (seconds). `SpecClock.At` says that a text is understood as one second, by the two bounds of its result only. C94_every and C94_range: the texts in universal time and the seconds of the years -9999 to 9999 correspond one to one (C82's `plainZero` removes the sign of a year zero). C94_inside compares texts by their beginnings, as C82 does. C94_order, C94_order_negative and C94_order_signs relate the order of characters to that of seconds. C94_no_zone, C94_zones and C94_offset treat the zones. C94_sign states what the code does with a sign and an offset together (C07 is partial for that reason).
- **C95** (order). `SpecSort.Spans` says that a text is understood and has two bounds; `Forward` that they are in order; `Leads` that each text of a list is before the next. C95_crossed is the condition for an interval order; C95_sorted and C95_cycle are about lists of any length. C95_single and C95_forward say which texts meet the condition `Forward`; C95_backward and C95_signed show that it is needed. `NoSign` is a condition on the characters of the text.
- **C96** (typing errors). `SpecTypo.outline` drops the qualifiers of a text and makes all its digits the same. C96_outline follows from C54 (the accepted language) and C96_used shows that no outline is superfluous. C96_missing, C96_swapped and C96_replaced compare the eighty outlines with one another, by computation over the whole table (as numbers in a search tree, for speed). C96_unnoticed and C96_unnoticed2 show that the exceptions are real.
- **C97** (leaving out digits). `SpecVague.Vaguer` compares two texts character by character. C97_longer shows that a single date or an interval covers every accepted text of which it is the vaguer form; by C55 (the exact result of every text) each is read as a first and a last day, or as a whole month, and these are compared part by part. C97_compare draws the conclusion for the comparison functions. C97_zero, C97_ten and C97_winter show for all years that the three conditions are needed.
- **C98** (400 years). `SpecPeriod.Moved` replaces the first two digits of the year. C98_moved goes through the forms of C55 (the exact result of every text), gives for each the form with the new year and compares the first and last seconds with the calendar fact that day numbers grow by 146097 in 400 years; C98_interval does the same for both sides of an interval. C98_accepted and C98_compare are conclusions. C98_exceptions shows that each exception occurs.
- **C99** (nearest ends). `SpecNear.FirstOf` and `LastOf` are the ends of a text. That nothing else counts follows from the outcome of every comparison (C67). For the converse a text is needed that separates two ends: every second that bounds a text can be written as a time of day (C94), or the text is itself a time of day. C99_interval and C99_set add the times of the sides and of the members (C91); the four statements about intervals are equivalences, so the exceptions are exact.
- **C100** (the times of texts). `SpecWhole.Dawn` and `Dusk` are the ends of days, `Reachable` the seconds that can be written. One pass over the kinds of texts (C55) shows that those without a colon start with a day and end with one; that all pairs occur follows from intervals of two days (C08) and from times of day (C94) together with the offsets of up to 25 hours that reach beyond year 9999.
- **C101** (marks). `SpecMark.HasEnd` says that some boundary of the result is such a one; `MonthAnd t` are the texts in which `t` follows a month or a day, `DotsAtEnd` and `OpenBothWays` speak of the parts between the commas. Three passes over the kinds of texts (C55), for the qualifiers, the ends and the flags of sets, each with a lemma that the marks written are those set. Sets with an absent member can have an unknown end (finding 22), so the statement about unknown ends leaves brackets out
- **C102** (bytes). `Bytes` repeats the functions that take strings from outside, on bytes; error texts and output are bytes. `SpecBytes.BrokenAfter b u`: the bytes are the UTF-8 of `u` up to a place where no character begins. Reading gives U+FFFD there, which no pattern has, so that all tests fail, and the test of Level 2, which looks at the beginning only, sees `u`. On UTF-8 each function is shown to be the encoding of its twin; for flags this needs that '-' and '=' are no part of the bytes of another character.
- **C103** (normal forms). `SpecNormal.Normal s w` reads `w` off the result of `s`: the date and time of the first boundary if `s` has a colon, otherwise the days of the first and the last boundary with a stroke between them. By C31 the shown date is that of the timestamp, and by C94 and C08 such texts are read as that second and these days; C100 says that only times of day have anything else than whole days. The exception, found in the proof: an offset can lead to the years -10000 and 10000, and a result then shows a date and time that the parser refuses ("9999-12-31T23:59:59-01" shows "10000-01-01T00:59:59Z").
- **C104** (bytes, single functions). `SameOnUtf8 F P`: on UTF-8 the function on bytes says what the one on characters says, and the text of the result is the bytes. `RefusesBroken F label`: of other bytes it says that they are invalid, and repeats them. The patterns between `^` and `$` match no rune U+FFFD, hence no other bytes. The season pattern does: `SeasonBytes` describes the season in bytes without reading them as characters, and is shown to be the season in the runes, because a part of the runes without U+FFFD is a part of the bytes (`runes_prefix`, `runes_suffix`) and an ASCII byte never belongs to a longer rune (`runes_two`). `BrokenSpan` gives the error of a span; for the helpers the accepted bytes are described.
- **C105** (bytes, helpers for days). `EscapedBytes b q` is the relation of bytes and their quotation: a prefix that is the encoding of one character is escaped as a character, a byte with which no such prefix begins is written as a number. `NoIntBytes b t`: what is said of bytes that are no integer. `DaysBytesText b r` and `YmdBytesText b r` give the outcome `r` (value or error) for every string; each is shown to hold of the outcome of the function and of no other. They use the relations of C69 and C85 only where all bytes are UTF-8.
- **C106** (exponential notation). `infinities`, `NumberThen s neg ds d binary e rest` (the string `s` is a number with the digits `ds`, of which `d` are after the point, and the exponent `e`, and then `rest`) and `NotationSays s w` describe strings without scanning them; `C106_kinds` says that they exclude each other and leave nothing out, `C106_outcome` what is returned. `top / bottom` is the number as a fraction of integers: `C106_value` (with a margin of 2^-49 below the next integer, within which rounding to 64 bits may reach it) and `C106_above` say what is made of it; the power of five is exact up to 5^42, hence the limit on the digits after the point. `C106_panic`: only infinities and very large exponents panic. `C106_form`: the model of the parser, which knows only the strings that it passes on, agrees. Bytes are read one by one, as math/big does, also in error texts (byte 0x85 is called '\u0085').
- **C107** (times of day as bytes). `InstantBytes f v b r` gives the outcome for the date `v` and the bytes `b`: the instant of C69 if the bytes, taken as characters, are a time of day, and otherwise what package time says of them (`TimeBytesSays`, like `TimeSays` of C85 but with bytes quoted one by one, `bytesQuoted`). `C107_instant` and `C107_instant_text` are total. `C107_broken`: what is not UTF-8 is an error. `C107_utf8` and `C107_text_utf8`: of UTF-8 the same is said as in the model on texts, where a character is quoted as the bytes of its encoding; the proof follows each part of the layout through the encoding.
- **C108** (JSON as bytes). In the model the scanner runs over the bytes, and only what stands between quotes is turned into characters; `ReadAs b s` (the bytes `b` are read as the text `s`) cuts bytes into characters without a decoder. `C108_decodes` says that scanning first and reading afterwards gives what reading first and scanning afterwards gives, in the terms of C72: the scanner is followed on both strings side by side, since it only looks at ASCII, and a timestamp in quotes is the only place where the raw bytes matter. `C108_text`, `C108_same`, `C108_utf8` and `C108_string` draw the conclusions, and `C108_roundtrip` is C42 for bytes.
- **C109** (timestamps as bytes). `TimestampRead` has one case for a number and one for an error, whose text is given byte by byte; `C109_unmarshal` says that the method does exactly that, `C109_error` that an error leaves the timestamp as it was and that the outcome does not depend on what it was, `C109_roundtrip` that what is written is read back, and `C109_utf8` that on texts this is the model of C45. In particular `null` is an error here, although the convention of encoding/json is that it changes nothing; through `json.Unmarshal` a null member never gets that far (C72).
- **C110** (what errors show). `Shown` is said of characters with the table of those that are not printable. `C110_printed` follows the cases of `EscapedBytes`; for `C110_number` the quoted text is read back one piece at a time, the first two characters saying how long a piece is, up to the quotation mark at its end. `C110_year` and `C110_timestamp` draw the conclusions for the functions of /repo.
- **C111** (what can be told from an error, partial). The full statement, that strings with the same error are the same, is refuted by `C111_negation`. `C111_shown_partial` starts from any error whose first three letters are those of "Unrecognized" and shows what all of it is, for UTF-8 by the cases of `ErrorText` and for other bytes by those of `BrokenText`; `C111_unrecognized_partial` concludes that it determines the bytes. `C111_time_partial` starts from any error that begins with "parsing time" and is not about the winter that ends in 10000; it can only be about a date with a time, and the quoted string has no quotation mark of its own, because such strings are accepted only by the expressions that never lead to this error. `C111_named_partial` goes through all cases of `Fails` and says what part of the string an error names; `C111_same_partial` concludes that strings with the same error are the same for all labels but two. `C111_part_partial` says when the named string is a part of the given one, and `C111_made_partial` that each of its exceptions occurs. Missing: which strings share each of the remaining errors.

## 3. Trusted base

- Lean's kernel and the axioms `propext`, `Classical.choice`, `Quot.sound`.  No others; section 5 lists them per theorem.
- That the model says what the Go code says (citations in the comments), and that the parts of Go's standard library listed below behave as modelled:
  - `regexp`: leftmost-first semantics; `\d`, `\s` ASCII; `$` end of text; simple case folding for `(?i)`.
  - `strconv`: decimal parsing and formatting with 64-bit range checks.
  - `time`: proleptic Gregorian arithmetic in UTC, `Parse` for the six layouts used, offset limits hh <= 24 and mm <= 60 as in Go 1.20 and later.
  - `math/big.Float`: 64-bit mantissa, round to nearest even, `Mul`, `pow5`, `Int`, `Int64` truncation.
  - `encoding/json` (nesting limit 10000 included): `Marshal` and `Unmarshal` for structs of strings, integers, booleans and pointers; HTML escaping on; `UnmarshalJSON` of the timestamp type receives the literal text of the value.
  - `flag`: `Parse` with no flags defined, and with a string and an integer for the server, and its messages; `net.SplitHostPort` and the check of the port in `net.Listen`; the messages of `strconv`, `time` and `math/big` (`strconv.Quote` with the printable characters of Unicode 15.0.0, the version of Go 1.21 and later); `log` adds a line feed; `sort.Strings`, `strings.*` as listed.
- `int` is 64 bits wide.

`tools/cites.py` compares the lines cited in the comments with the places where the functions of /repo begin and end.

As a check on the reading of the Go source, `tools/second_reading.py` is a second transcription of the parser,
made from /repo and not from the model, and `tools/crosscheck.py` compares the two on about 64000 generated texts; they agree on all
of them. It is no part of the proofs, runs no code of /repo, and would not show a mistake made in both readings.

Not modelled: the texts of the errors of the JSON reader;
of the HTTP server: CONNECT, targets that do not begin with a slash, conditional and range requests, headers and the contents of files; time stamps in logs and the
trace of a panic; memory and time limits (for example the size of the integer built from
a huge exponent).

## 4. Findings: where the code departs from the stated properties

All of these were found by reading and are theorems about the model; none was
reproduced by running the code.

1. **Season pattern captures other dates** (C16, C17, C21, C49; `re/level1.go`: the pattern is `^A|(?i)B$`). Any level 1 string that starts with a year, a dash and 01–12 or 21–24 is parsed as a season: "2004-06~" and "2004-06-11%" become all of June 2004 with no flags, "1985-04-12/.." loses its open end, "1985-12-1X" becomes all of December.
2. **`re.Level2` is not anchored at the end** (C13): `IsValid("2004?nonsense")` is true, `ParseString` says invalid. `(?i)` leaks into later alternatives: "201x" is valid but does not parse; 'ſ' (U+017F) matches `s`.
3. **`IsExtendedInterval` is always true** (C48).
4. **`NotSet()` makes a not-implemented error** (C43): `IsNotSet(NotSet())` is false.
5. **Panics** (C15): "1950S5", "0050S3", "-2000S6", "Y-12S100" (slice bounds out of range), "Y1E2000000000" (infinite float).
6. **Significant digits count from the right** (C24): "1950S3" gives 1000–1999 instead of 1950–1959; right only for two digits of a four-digit year.
7. **Exponential years** (C23): years of absolute value below 1000 are errors ("Y5E2"); values from 2^63 on wrap around ("Y18446744073709553616E0" is the year 2000).
8. **Unpadded years**: sub-year winters of 0000–0998 and 9999 are errors (C19); seasons of -0999..-0001 and the winter of -1000 are errors (C18).
9. **Month "0X" means October to December** (C20), day "0X" is an error outside the season case; "2021-02-2X" and "200X-02-29" are errors because the last reading does not exist in the last month.
10. **Day 00** at level 2 (C21, C27): "2004-06-00" parses, as the 30th of June.
11. **Sets are ordered by text** (C25, C32): wrong for negative years and mixed precision ("{-0100,-0200..}" has a start range that runs backwards). Brackets need not match (C50). "[..1984,1990..]" gives one shared range for both sides (C26). Middle members are never checked.
12. **Negative years with an offset** (C07): "-0001-01-01T00:00:00+01" is read as 31 December of year 0, 23:00, instead of 31 December of year -2, because the sign is applied after the shift to UTC.
13. **Before and After are not strict** (C35): an instant is before and after itself. A date that is open is never before or after anything; comparing with an open or unknown date is an error.
14. **Intervals are not checked for order** (C09): "2008/1964".
15. **Precision is YEAR for every date without X** (C46), also for days and months.
16. **`YMDFromString`**: "-200" and "-200-05" are errors although "-0200" is fine; `YMDFromStrings` accepts a negative day (C40).
17. **`DaysInMonth`**: month 0 and months above 12 give 31 (C39).
18. **`-0000`** is the year 0 (C04), and "--1985" is valid for `IsValid` but never parses (C13).
19. **Timestamps in JSON** may have unbalanced quotes and a leading plus (C45).
20. **Command-line tools** (C51–C53): a first argument such as "-1985" is taken for a flag (exit status 2); "-h" exits with status 0 and prints nothing on standard output; "--" helps. A failing `parse` run leaves a truncated array on standard output. `parse` accepts ".." while `matches` rejects it.
21. **Qualifiers and signs** (C27–C29): negative years cannot carry group or individual qualifiers, right qualifiers are not recognised at interval endpoints, and left and right qualifiers cannot be mixed.
22. **Sets with an empty member** (C54): "[2004,]" is accepted with an unknown start, because the empty member sorts first, and "[2004,..]" becomes a set with an open start.
23. **Middle members of a set are not checked** (C54): "{2004,2005-02-31,2007}" and "[2004,20052006,2007]" are accepted, since only the first and last member after sorting are read.
24. **Days after a month are ignored** (C54): "2004-02-31?" and "2004-06-1x" are accepted and read as whole months, through the season parser.
25. **Days 10 and 20 change the level** (C55): "200X-12-11" is a Level 1 date but "200X-12-10" and "200X-12-20" are Level 2 ("Unspecified Digit"), since the Level 1 pattern has no day ending in 0 below 30.
26. **The test helper overlooks flags** (C56): an expectation without flags is met by a date with any flags, one flag in common is enough, and a boundary expected at the instant 0 is not checked; the Go tests therefore do not notice superfluous flags.
27. **The WebAssembly function rejects with a number** (C57): `reject.Invoke(fmt.Printf(...))` passes the number of bytes printed, so that the page learns nothing about the error; `parse_edtf()` without an argument and `parse_edtf("1950S5")` end the program.
28. **Level 2 is open-ended** (C61): `re.Level2` lacks the final `$`, so any string that begins with four digits is "valid", although parsing "2004 or so" gives an error, and that error is not the one for unrecognised strings.
29. **Small letters at the level tests** (C61): the flag `(?i)` of the seasons reaches later alternatives, so that "200x" is of Level 1 and no feature of Level 1 then accepts it.
30. **Comparisons hide errors** (C67): the errors of the parser are formatted with `%v`, so that `IsAfter("junk", …)` gives a plain error, while `DeriveRanges` keeps the kind with `%w`. `IsBetween(d, i, "junk")` is false without an error if `d` is before `i`.
31. **Sets lose their lower bound** (C68): "{2003,2004,}" and "[2003,..]" cannot be compared with a later date, and have no Unix ranges, although nothing in them is earlier than 2003. "{..2003,2004..}" has an upper bound, the end of 2004.
32. **A text before the first hyphen is dropped** (C69): `YMDFromString("foo-2004-05-06")` is 6 May of the year -2004, and `DaysInMonthWithString("foo-2004-02")` is 29. `YMDFromStrings("2004", "2", "-3")` returns day -3 without an error.
33. **The least integer is not a large year** (C69): the year -9223372036854775808 gives a plain error, not the unsupported one of all other years of more than four digits. The unsupported error drops the sign of the year.
34. **Late timestamps wrap around** (C75): a date read from JSON with a timestamp of 2^63 - 62135596800 or more is before every other date, since `time.Unix` counts from the year 1. `Lower()` of a date without ranges panics.
35. **A bracket that opens at the end** (C77): `DateRange.String` ends in `'[` where the others end in `']`, so that the brackets of ranges and spans are never balanced.
36. **No addresses of IPv6** (C86): the server joins host and port with `%s:%d`, not with `net.JoinHostPort`, so that `-host ::1` ends with "too many colons in address"; brackets have to be given. A port is not checked when the flag is read: `-port 65536` is announced as listening before it fails.
37. **Compliance with the specification** (C87): README.md:3 claims Levels 1 and 2. Of the 64 examples in the specification these are refused or get another meaning: 'Y170000002', 'Y-170000002', '2004-06~', '2004-06-11%' (twice), '1985-04-12/..', '1985-04/..', '1985-04-12/', '1985-04/', 'Y-17E7', 'Y171010000S3', 'Y3388E2S3' and 'XXXX-12-XX'. The features that hold completely are the three of Level 0, unspecified digits from the right, negative years and qualification of individual components.
38. **The page does not say what is wrong** (C88, C57): `index.js:43` shows the reason of the rejection, which is the number of bytes that `fmt.Printf` wrote, so '2021-02-30' and '2021-02-31' both give "There was a problem parsing your EDTF string:53". After a text that panics ('1950S5') the page shows nothing for any text, without a message, until it is loaded again.
39. **Labels that do not name their range** (C89): the label of an open side is '..' in '../2004' and '{..1985}', but empty in '..' and '[..1985,1990]' (common/range.go:493-499, level2/set_representation.go:208-222), and an empty string parses as unknown. An instant has empty labels (level0/date_and_time.go:85-93). The ends '-2004-XX', '-2004-06-00', '~-2004' and '~201X' are read in intervals, where they become labels, but are refused alone. The dated side of '[..1985,1990]' has the label '1990' and runs from the start of 1985.
40. **Paths of the server** (C90): an escape within '/wasm/' makes a program disappear ('/%77asm/parse-js.wasm' is not found, while '/%63ss/index.css' is served), because `StripPrefix` compares the escaped path as well. A path that ends in '/index.html' is redirected even if its directory does not exist, and is not found only then. The directories '/css/', '/javascript/' and '/wasm/' are listed.
41. **A side of an interval can mean another time alone** (C91): '1985-04-1X' is the whole April alone, and the 10th to the 19th as a side of an interval, so '1985-04-1X' and '1985-04-1X/1985-04-1X' differ. In '1985-04-12/..' both the open end and the day are lost. '2004-06-11%' is the whole of June 2004, and the only kind of text that means another time without its qualifiers.
42. **Small letters are accepted in some places only** (C93): 'y17e2' is read like 'Y17E2', but 'y1985' and 'Y17E2s2' are refused; '1985-04-1x' is read like '1985-04-1X', but '198x', '1985-xx' and '1985-04-xx/1986' are refused. EDTF has capital letters only, so 'y17e2' and '1985-04-1x' should be refused too.
43. **An open end is compared in two ways** (C99): `IsBefore("..", "1980")` is false, but `IsBefore("1985/..", "1980")` is an error, though the end is open in both. `IsBetween("1985-22", "1985", "..")` is true, but `IsAfter("1985-22", "1985/..")` is an error, since only `IsBetween` looks for '..' in the second place.
44. **Some times lie outside the years that can be written** (C100): `9999-12-31T23:59:59-24:60` is in the year 10000, and `-9999-12-31T23:59:59-24:60` in the year -10000, where nothing after the first 25 hours can be written: the sign is put before the year after the offset has been applied.
45. **Sets that are open both ways lose their brackets** (C101): `[..1667,1760..]` and `{..1667,1760..}` have the same boundaries, without the flag for a choice or an inclusion. Of all other texts only those in which a qualifier, two dots or nothing follow a month or a day lose a mark (`2004-06?`, `1985-04/..`, `1985-04/`).
46. **A field that is never set** (C101): `Date.Unspecified` (date.go:14) stays 0 for every text, also for `198X` and `1985-XX-XX`, in which digits are unspecified; and times of day have no precision at all.
47. **A date that cannot be read back** (C103): an offset can lead out of the years with four digits; "9999-12-31T23:59:59-01" is accepted and its result shows "10000-01-01T00:59:59Z" (`date.go:21-24`), which the parser refuses.
48. **Bytes that are no text are accepted** (C104): `level1.ParseSeason` and `level1.ParseString` accept "1985-04" followed by any bytes, also by a byte that begins no character, and the result has them in its `edtf` field; `common.YMDFromString` ignores what stands before the first of three hyphens, so that the byte FF and "-1985-04-12" is a day of the year -1985. `parser.ParseString` refuses both (C102).
49. **`ParseExponentialNotation` reads whatever math/big reads** (C106): "Inf", "-inf" and the like make it panic, as does "1e1000000000"; fractions are cut off ("1985.9" is 1985, ".5" is 0), and binary exponents are understood ("15p-2" is 3). "9999.99999999999999999999" is rounded to 10000 and not supported.
50. **Bytes that are not UTF-8 are lost when a date is decoded** (C108): a JSON document with such bytes between quotes is not refused, and its `edtf` contains U+FFFD instead, for which the parser then gives an error about another string; different documents become the same date.
51. **Most errors do not say which string they are about** (C111): "1985-04-31" and "1986-06-31/1987" are both told "Invalid days for month", the error for "1984/1985-99" is that for "1985-99", "Y17E7" and "y17E7S3" are both called '17E7', and the error for "-0999-21" is about '-999-03-01', which nobody wrote.

## 5. Axioms per theorem

Output of `#print axioms` for the theorems of MANIFEST.json, grouped (`python3 tools/axioms.py`).

- **none** (5 theorems): C26_flags_differ, C42_undated_text, C48_negation, C48_all_partial, C77_not_set
- **`propext`** (18 theorems): C34_wraps, C40_equals, C40_signed_day, C40_negative_year, C42_timestamp, C42_document_text, C42_range_text, C43_undated, C44_which, C45_negation, C61_valid_partial, C69_equals, C75_bounds, C75_equals, C76_ascii, C77_texts, C77_qualifier, C109_error
- **`propext, Quot.sound`** (60 theorems): C11_exception, C13_negation, C14_unrecognized, C17_negation, C27_negation, C27_zero_day, C28_marks, C30_open_unknown, C32_negation, C34_bounds, C35_negation, C36_needs_order, C37_open_date, C41_named, C42_boundary_text, C43_negation, C43_others_partial, C44_deprecated, C47_flip, C50_negation, C51_status_partial, C51_status_dashes, C51_flag, C51_negation, C51_negative_years, C52_status, C52_output, C52_exceptions, C53_status, C55_text, C56_negation, C57_nonstring, C73_text, C76_flat, C76_compiled, C77_error, C77_kind, C77_ymd, C77_date, C77_range, C77_span, C78_foreign, C78_alphabet, C78_rest, C79_forget, C81_forget, C81_deprecated, C83_forget, C83_missing, C84_forget, C85_forget, C87_examples_are, C88_alike, C95_signed, C96_used, C96_unnoticed, C96_unnoticed2, C102_flags, C111_made_partial, C111_negation
- **`propext, Classical.choice, Quot.sound`** (444 theorems): C01_complete_date, C02_year_month, C03_year, C04_negative, C05_missing_day, C05_accepts_only_days, C06_instant, C06_rejects, C06_needs_day, C07_utc_partial, C07_offset_partial, C07_negation, C08_interval, C08_bounds, C09_negation, C09_order_partial, C10_source, C11_agree, C11_error, C12_valid, C13_exact_partial, C13_level0_partial, C15_sig_partial, C15_only_partial, C15_exp_partial, C15_negation, C16_year_partial, C16_month_or_day_partial, C16_negation, C17_start, C17_end_year_partial, C17_end_month_or_day_partial, C18_numeric_partial, C18_bounds_partial, C18_negation, C18_text, C18_text_last, C19_months_partial, C19_crossing_partial, C19_negation, C20_exact_partial, C20_inside_partial, C20_negation, C21_exact_partial, C21_tight_partial, C21_month_partial, C21_negation, C22_four, C22_more, C22_fewer, C23_year_partial, C23_unsupported_partial, C23_small_partial, C23_huge_partial, C23_sound_partial, C23_wrap_partial, C23_negation, C23_panic_partial, C24_actual_partial, C24_two_partial, C24_fails, C24_negation, C24_short_partial, C24_large_partial, C24_minus_partial, C24_panic_partial, C25_lower_exact_partial, C25_upper_exact_partial, C25_bounds_partial, C25_text_order_partial, C25_negation, C26_flag_partial, C26_upTo, C26_onFrom, C26_one_side_partial, C26_both_sides_partial, C26_negation, C27_group_partial, C27_bounds_partial, C27_only_partial, C27_negative_partial, C28_individual, C28_only, C28_negative, C28_mixed, C29_alone, C29_ranges, C29_level, C29_digits, C29_right, C29_only, C30_only, C31_wellformed, C31_determined, C32_sets_written_partial, C32_sets_exact_partial, C32_order_partial, C32_sets_partial, C33_years, C34_parsed, C34_strings, C35_irrefl_partial, C35_self, C35_asymm_partial, C36_trans, C36_strings, C37_between, C37_open_end, C38_derive, C38_outer, C38_nested, C39_days, C39_long_years, C39_negative_months, C39_other_months, C40_full_date, C40_existing, C40_year_month, C40_year, C40_table, C41_sets, C41_tests, C42_roundtrip, C42_parsed, C42_injective, C45_roundtrip, C45_accepts, C46_year, C46_unspecified_year, C46_digits_partial, C46_negation, C46_unspecified_partial, C47_bce, C47_every_instant, C49_exact_partial, C49_negation, C50_exact_partial, C50_brackets_partial, C51_output_partial, C51_failure, C52_follows, C53_output, C54_language, C55_denotes, C55_unique, C55_accepted, C56_verdict_partial, C56_self, C57_fulfilled_partial, C57_rejected_partial, C57_crashed, C57_negation, C58_date, C58_time, C58_interval, C59_letter, C59_qualified, C59_unspecified, C59_negative, C60_exponential, C60_significant, C60_subyear, C60_group, C60_individual, C60_digit, C60_interval, C61_level0, C61_level1_partial, C61_level2_partial, C61_four_digits, C61_negation, C62_error, C62_unique, C63_panic, C63_three, C64_error, C64_span, C64_total, C64_unique, C65_level0, C65_level1, C65_level2, C65_extended, C65_same, C65_season, C65_season_only, C65_grouping, C65_grouping_only, C65_all0, C65_all1, C65_all2, C66_level0, C66_level1, C66_level2, C66_matches, C66_error, C66_total, C67_after, C67_before, C67_between, C67_ranges, C67_unique, C68_lower, C68_upper, C68_ranges, C69_days, C69_days_text, C69_ymd, C69_ymd_text, C69_instant, C69_instant_text, C69_ymd_record, C70_range, C70_error, C70_total, C71_reads, C71_unique, C71_refuses, C72_decodes, C74_flags, C74_matches, C74_parse, C74_match, C74_wasi, C74_wasm, C75_after, C75_before, C76_unique, C76_search, C76_match, C76_submatch, C77_labels, C77_parser, C77_edtf, C77_brackets, C78_utf8, C78_bytes, C78_read, C79_date, C79_time, C79_plain, C79_text, C79_unique, C80_run, C80_parse, C80_match, C80_wasi, C81_after, C81_before, C81_between, C81_ranges, C82_inside, C82_apart, C82_same, C82_compare, C82_order, C82_order_negative, C82_range, C82_tiles, C82_parts, C82_next, C83_outcome, C83_parsed, C84_span, C84_level0, C84_level1, C84_level2, C84_extended, C84_same, C84_season, C84_season_only, C84_grouping, C84_grouping_only, C84_all1, C84_all2, C85_days, C85_days_text, C85_ymd, C85_ymd_record, C85_ymd_text, C85_range, C85_instant, C85_instant_text, C86_port, C86_flags, C86_starts, C86_ipv6, C87_exact, C87_taken, C87_wrong, C87_panics, C87_level0, C87_examples, C87_features, C87_negation, C88_entered, C88_date, C88_copied, C88_error, C88_nothing, C88_session, C89_labels_partial, C89_interval, C89_negation, C90_answers, C90_contained, C90_ends, C90_page, C90_parts, C91_interval, C91_itself, C91_set, C91_alike, C91_single, C91_dots, C91_letter, C91_any, C91_qualifiers, C92_bounded, C92_unbounded, C93_exact, C93_same, C94_inside, C94_every, C94_range, C94_compare, C94_compare_date, C94_order, C94_order_negative, C94_order_signs, C94_no_zone, C94_zones, C94_offset, C94_sign, C95_crossed, C95_sorted, C95_cycle, C95_backward, C95_forward, C95_single, C96_outline, C96_missing, C96_swapped, C96_replaced, C97_longer, C97_compare, C97_zero, C97_ten, C97_winter, C98_moved, C98_accepted, C98_compare, C98_interval, C98_exceptions, C99_first_before, C99_first_after, C99_second_before, C99_second_after, C99_indistinct, C99_interval, C99_between, C99_set, C100_days, C100_colon, C100_length, C100_before, C100_seconds, C100_times, C101_uncertain, C101_approximate, C101_same, C101_sides, C101_open, C101_unknown, C101_choice, C101_kinds, C101_unspecified, C101_precision, C102_bytes, C102_parse, C102_broken, C102_matched, C102_panic, C102_compare, C102_first, C102_second, C102_third, C102_tools, C102_parse_tool, C102_match_tool, C102_wasi_tool, C103_moment, C103_exists, C103_normal, C103_same, C103_idem, C103_compare, C103_fixed, C104_matched, C104_tests, C104_utf8, C104_refused, C104_season, C104_season_only, C104_level1, C104_levels, C104_span, C104_broken_span, C104_ymd, C104_ymd_broken, C105_number, C105_days, C105_ymd, C105_ymd_text, C106_kinds, C106_outcome, C106_value, C106_above, C106_form, C106_panic, C107_instant, C107_instant_text, C107_broken, C107_utf8, C107_text_utf8, C108_text, C108_decodes, C108_utf8, C108_same, C108_string, C108_roundtrip, C109_unmarshal, C109_roundtrip, C109_utf8, C110_number, C110_printed, C110_year, C110_timestamp, C111_shown_partial, C111_unrecognized_partial, C111_named_partial, C111_same_partial, C111_part_partial, C111_time_partial
