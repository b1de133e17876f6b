/-
The repository's own test tables run on the model.  Generated by
tools/gentests.py.  These are tests on literals (they validate the model);
no property rests on them.
-/
import Verif.Cmp
namespace EDTF.Tests

/-- tests/tests.go: the expectations for one boundary. -/
structure Want where
  rfc : Str
  unix : Int
  isOpen : Bool
  unknown : Bool
  precision : Prec
  uncertain : Prec
  approximate : Prec
  inclusivity : Prec

def flagOk (got want : Prec) : Bool := want == 0 || Prec.hasFlag got want

/-- tests/tests.go: the checks on one boundary. -/
def check1 (d : Option Date) (w : Want) : Bool :=
  match d with
  | none => false
  | some d =>
    (w.rfc.isEmpty || d.timestamp.map formatRFC3339 == some w.rfc) &&
    (w.unix == 0 || d.timestamp == some w.unix) &&
    d.isOpen == w.isOpen && d.unknown == w.unknown && flagOk d.precision w.precision &&
    flagOk d.uncertain w.uncertain && flagOk d.approximate w.approximate &&
    flagOk d.inclusivity w.inclusivity

/-- Errors of kind unsupported or not-implemented are skipped by the Go tests. -/
def checks (r : Res EDTFDate) (sl su el eu : Want) : Bool :=
  match r with
  | .ok ⟨some s, some e, _, _, _⟩ =>
    check1 s.lower sl && check1 s.upper su && check1 e.lower el && check1 e.upper eu
  | .err e => isUnsupported e || isNotImplemented e
  | _ => false

/-! level0/tests.go: DATE -/
example : checks (L0.parseDate (c! "0000-01-01"))
    ⟨c! "0000-01-01T00:00:00Z", 0, false, false, Prec.NONE, Prec.NONE, Prec.NONE, Prec.NONE⟩
    ⟨c! "0000-01-01T00:00:00Z", 0, false, false, Prec.NONE, Prec.NONE, Prec.NONE, Prec.NONE⟩
    ⟨c! "0000-01-01T23:59:59Z", 0, false, false, Prec.NONE, Prec.NONE, Prec.NONE, Prec.NONE⟩
    ⟨c! "0000-01-01T23:59:59Z", 0, false, false, Prec.NONE, Prec.NONE, Prec.NONE, Prec.NONE⟩ = true := by decide +kernel
example : checks (L0.parseDate (c! "1985-04-12"))
    ⟨c! "1985-04-12T00:00:00Z", 0, false, false, Prec.NONE, Prec.NONE, Prec.NONE, Prec.NONE⟩
    ⟨c! "1985-04-12T00:00:00Z", 0, false, false, Prec.NONE, Prec.NONE, Prec.NONE, Prec.NONE⟩
    ⟨c! "1985-04-12T23:59:59Z", 0, false, false, Prec.NONE, Prec.NONE, Prec.NONE, Prec.NONE⟩
    ⟨c! "1985-04-12T23:59:59Z", 0, false, false, Prec.NONE, Prec.NONE, Prec.NONE, Prec.NONE⟩ = true := by decide +kernel
example : checks (L0.parseDate (c! "1985-04"))
    ⟨c! "1985-04-01T00:00:00Z", 0, false, false, Prec.NONE, Prec.NONE, Prec.NONE, Prec.NONE⟩
    ⟨c! "1985-04-01T23:59:59Z", 0, false, false, Prec.NONE, Prec.NONE, Prec.NONE, Prec.NONE⟩
    ⟨c! "1985-04-30T00:00:00Z", 0, false, false, Prec.NONE, Prec.NONE, Prec.NONE, Prec.NONE⟩
    ⟨c! "1985-04-30T23:59:59Z", 0, false, false, Prec.NONE, Prec.NONE, Prec.NONE, Prec.NONE⟩ = true := by decide +kernel
example : checks (L0.parseDate (c! "1985"))
    ⟨c! "1985-01-01T00:00:00Z", 0, false, false, Prec.NONE, Prec.NONE, Prec.NONE, Prec.NONE⟩
    ⟨c! "1985-01-01T23:59:59Z", 0, false, false, Prec.NONE, Prec.NONE, Prec.NONE, Prec.NONE⟩
    ⟨c! "1985-12-31T00:00:00Z", 0, false, false, Prec.NONE, Prec.NONE, Prec.NONE, Prec.NONE⟩
    ⟨c! "1985-12-31T23:59:59Z", 0, false, false, Prec.NONE, Prec.NONE, Prec.NONE, Prec.NONE⟩ = true := by decide +kernel
example : checks (L0.parseDate (c! "-0400"))
    ⟨c! "-0400-01-01T00:00:00Z", 0, false, false, Prec.NONE, Prec.NONE, Prec.NONE, Prec.NONE⟩
    ⟨c! "-0400-01-01T23:59:59Z", 0, false, false, Prec.NONE, Prec.NONE, Prec.NONE, Prec.NONE⟩
    ⟨c! "-0400-12-31T00:00:00Z", 0, false, false, Prec.NONE, Prec.NONE, Prec.NONE, Prec.NONE⟩
    ⟨c! "-0400-12-31T23:59:59Z", 0, false, false, Prec.NONE, Prec.NONE, Prec.NONE, Prec.NONE⟩ = true := by decide +kernel
example : checks (L0.parseDate (c! "-1200-06"))
    ⟨c! "-1200-06-01T00:00:00Z", 0, false, false, Prec.NONE, Prec.NONE, Prec.NONE, Prec.NONE⟩
    ⟨c! "-1200-06-01T23:59:59Z", 0, false, false, Prec.NONE, Prec.NONE, Prec.NONE, Prec.NONE⟩
    ⟨c! "-1200-06-30T00:00:00Z", 0, false, false, Prec.NONE, Prec.NONE, Prec.NONE, Prec.NONE⟩
    ⟨c! "-1200-06-30T23:59:59Z", 0, false, false, Prec.NONE, Prec.NONE, Prec.NONE, Prec.NONE⟩ = true := by decide +kernel
/-! level0/tests.go: DATE_AND_TIME -/
example : checks (L0.parseDateAndTime (c! "1985-04-12T23:20:30"))
    ⟨c! "1985-04-12T23:20:30Z", 0, false, false, Prec.NONE, Prec.NONE, Prec.NONE, Prec.NONE⟩
    ⟨c! "1985-04-12T23:20:30Z", 0, false, false, Prec.NONE, Prec.NONE, Prec.NONE, Prec.NONE⟩
    ⟨c! "1985-04-12T23:20:30Z", 0, false, false, Prec.NONE, Prec.NONE, Prec.NONE, Prec.NONE⟩
    ⟨c! "1985-04-12T23:20:30Z", 0, false, false, Prec.NONE, Prec.NONE, Prec.NONE, Prec.NONE⟩ = true := by decide +kernel
example : checks (L0.parseDateAndTime (c! "2021-12-10T01:29:00Z"))
    ⟨c! "2021-12-10T01:29:00Z", 0, false, false, Prec.NONE, Prec.NONE, Prec.NONE, Prec.NONE⟩
    ⟨c! "2021-12-10T01:29:00Z", 0, false, false, Prec.NONE, Prec.NONE, Prec.NONE, Prec.NONE⟩
    ⟨c! "2021-12-10T01:29:00Z", 0, false, false, Prec.NONE, Prec.NONE, Prec.NONE, Prec.NONE⟩
    ⟨c! "2021-12-10T01:29:00Z", 0, false, false, Prec.NONE, Prec.NONE, Prec.NONE, Prec.NONE⟩ = true := by decide +kernel
example : checks (L0.parseDateAndTime (c! "2021-10-10T00:24:00Z"))
    ⟨c! "2021-10-10T00:24:00Z", 0, false, false, Prec.NONE, Prec.NONE, Prec.NONE, Prec.NONE⟩
    ⟨c! "2021-10-10T00:24:00Z", 0, false, false, Prec.NONE, Prec.NONE, Prec.NONE, Prec.NONE⟩
    ⟨c! "2021-10-10T00:24:00Z", 0, false, false, Prec.NONE, Prec.NONE, Prec.NONE, Prec.NONE⟩
    ⟨c! "2021-10-10T00:24:00Z", 0, false, false, Prec.NONE, Prec.NONE, Prec.NONE, Prec.NONE⟩ = true := by decide +kernel
example : checks (L0.parseDateAndTime (c! "2021-09-20T21:14:00Z"))
    ⟨c! "2021-09-20T21:14:00Z", 0, false, false, Prec.NONE, Prec.NONE, Prec.NONE, Prec.NONE⟩
    ⟨c! "2021-09-20T21:14:00Z", 0, false, false, Prec.NONE, Prec.NONE, Prec.NONE, Prec.NONE⟩
    ⟨c! "2021-09-20T21:14:00Z", 0, false, false, Prec.NONE, Prec.NONE, Prec.NONE, Prec.NONE⟩
    ⟨c! "2021-09-20T21:14:00Z", 0, false, false, Prec.NONE, Prec.NONE, Prec.NONE, Prec.NONE⟩ = true := by decide +kernel
example : checks (L0.parseDateAndTime (c! "1985-04-12T23:20:30Z"))
    ⟨c! "1985-04-12T23:20:30Z", 0, false, false, Prec.NONE, Prec.NONE, Prec.NONE, Prec.NONE⟩
    ⟨c! "1985-04-12T23:20:30Z", 0, false, false, Prec.NONE, Prec.NONE, Prec.NONE, Prec.NONE⟩
    ⟨c! "1985-04-12T23:20:30Z", 0, false, false, Prec.NONE, Prec.NONE, Prec.NONE, Prec.NONE⟩
    ⟨c! "1985-04-12T23:20:30Z", 0, false, false, Prec.NONE, Prec.NONE, Prec.NONE, Prec.NONE⟩ = true := by decide +kernel
example : checks (L0.parseDateAndTime (c! "1985-04-12T23:20:30-04"))
    ⟨c! "1985-04-13T03:20:30Z", 0, false, false, Prec.NONE, Prec.NONE, Prec.NONE, Prec.NONE⟩
    ⟨c! "1985-04-13T03:20:30Z", 0, false, false, Prec.NONE, Prec.NONE, Prec.NONE, Prec.NONE⟩
    ⟨c! "1985-04-13T03:20:30Z", 0, false, false, Prec.NONE, Prec.NONE, Prec.NONE, Prec.NONE⟩
    ⟨c! "1985-04-13T03:20:30Z", 0, false, false, Prec.NONE, Prec.NONE, Prec.NONE, Prec.NONE⟩ = true := by decide +kernel
example : checks (L0.parseDateAndTime (c! "1985-04-12T23:20:30+04:30"))
    ⟨c! "1985-04-12T18:50:30Z", 0, false, false, Prec.NONE, Prec.NONE, Prec.NONE, Prec.NONE⟩
    ⟨c! "1985-04-12T18:50:30Z", 0, false, false, Prec.NONE, Prec.NONE, Prec.NONE, Prec.NONE⟩
    ⟨c! "1985-04-12T18:50:30Z", 0, false, false, Prec.NONE, Prec.NONE, Prec.NONE, Prec.NONE⟩
    ⟨c! "1985-04-12T18:50:30Z", 0, false, false, Prec.NONE, Prec.NONE, Prec.NONE, Prec.NONE⟩ = true := by decide +kernel
example : checks (L0.parseDateAndTime (c! "-1972-04-12T23:20:28"))
    ⟨c! "-1972-04-12T23:20:28Z", 0, false, false, Prec.NONE, Prec.NONE, Prec.NONE, Prec.NONE⟩
    ⟨c! "-1972-04-12T23:20:28Z", 0, false, false, Prec.NONE, Prec.NONE, Prec.NONE, Prec.NONE⟩
    ⟨c! "-1972-04-12T23:20:28Z", 0, false, false, Prec.NONE, Prec.NONE, Prec.NONE, Prec.NONE⟩
    ⟨c! "-1972-04-12T23:20:28Z", 0, false, false, Prec.NONE, Prec.NONE, Prec.NONE, Prec.NONE⟩ = true := by decide +kernel
/-! level0/tests.go: TIME_INTERVAL -/
example : checks (L0.parseTimeInterval (c! "1964/2008"))
    ⟨c! "1964-01-01T00:00:00Z", 0, false, false, Prec.NONE, Prec.NONE, Prec.NONE, Prec.NONE⟩
    ⟨c! "1964-12-31T23:59:59Z", 0, false, false, Prec.NONE, Prec.NONE, Prec.NONE, Prec.NONE⟩
    ⟨c! "2008-01-01T00:00:00Z", 0, false, false, Prec.NONE, Prec.NONE, Prec.NONE, Prec.NONE⟩
    ⟨c! "2008-12-31T23:59:59Z", 0, false, false, Prec.NONE, Prec.NONE, Prec.NONE, Prec.NONE⟩ = true := by decide +kernel
example : checks (L0.parseTimeInterval (c! "2004-06/2006-08"))
    ⟨c! "2004-06-01T00:00:00Z", 0, false, false, Prec.NONE, Prec.NONE, Prec.NONE, Prec.NONE⟩
    ⟨c! "2004-06-30T23:59:59Z", 0, false, false, Prec.NONE, Prec.NONE, Prec.NONE, Prec.NONE⟩
    ⟨c! "2006-08-01T00:00:00Z", 0, false, false, Prec.NONE, Prec.NONE, Prec.NONE, Prec.NONE⟩
    ⟨c! "2006-08-31T23:59:59Z", 0, false, false, Prec.NONE, Prec.NONE, Prec.NONE, Prec.NONE⟩ = true := by decide +kernel
example : checks (L0.parseTimeInterval (c! "2004-02-01/2005-02-08"))
    ⟨c! "2004-02-01T00:00:00Z", 0, false, false, Prec.NONE, Prec.NONE, Prec.NONE, Prec.NONE⟩
    ⟨c! "2004-02-01T23:59:59Z", 0, false, false, Prec.NONE, Prec.NONE, Prec.NONE, Prec.NONE⟩
    ⟨c! "2005-02-08T00:00:00Z", 0, false, false, Prec.NONE, Prec.NONE, Prec.NONE, Prec.NONE⟩
    ⟨c! "2005-02-08T23:59:59Z", 0, false, false, Prec.NONE, Prec.NONE, Prec.NONE, Prec.NONE⟩ = true := by decide +kernel
example : checks (L0.parseTimeInterval (c! "2004-02-01/2005-02"))
    ⟨c! "2004-02-01T00:00:00Z", 0, false, false, Prec.NONE, Prec.NONE, Prec.NONE, Prec.NONE⟩
    ⟨c! "2004-02-01T23:59:59Z", 0, false, false, Prec.NONE, Prec.NONE, Prec.NONE, Prec.NONE⟩
    ⟨c! "2005-02-01T00:00:00Z", 0, false, false, Prec.NONE, Prec.NONE, Prec.NONE, Prec.NONE⟩
    ⟨c! "2005-02-28T23:59:59Z", 0, false, false, Prec.NONE, Prec.NONE, Prec.NONE, Prec.NONE⟩ = true := by decide +kernel
example : checks (L0.parseTimeInterval (c! "2004-02-01/2005"))
    ⟨c! "2004-02-01T00:00:00Z", 0, false, false, Prec.NONE, Prec.NONE, Prec.NONE, Prec.NONE⟩
    ⟨c! "2004-02-01T23:59:59Z", 0, false, false, Prec.NONE, Prec.NONE, Prec.NONE, Prec.NONE⟩
    ⟨c! "2005-01-01T00:00:00Z", 0, false, false, Prec.NONE, Prec.NONE, Prec.NONE, Prec.NONE⟩
    ⟨c! "2005-12-31T23:59:59Z", 0, false, false, Prec.NONE, Prec.NONE, Prec.NONE, Prec.NONE⟩ = true := by decide +kernel
example : checks (L0.parseTimeInterval (c! "2005/2020-02"))
    ⟨c! "2005-01-01T00:00:00Z", 0, false, false, Prec.NONE, Prec.NONE, Prec.NONE, Prec.NONE⟩
    ⟨c! "2005-12-31T23:59:59Z", 0, false, false, Prec.NONE, Prec.NONE, Prec.NONE, Prec.NONE⟩
    ⟨c! "2020-02-01T00:00:00Z", 0, false, false, Prec.NONE, Prec.NONE, Prec.NONE, Prec.NONE⟩
    ⟨c! "2020-02-29T23:59:59Z", 0, false, false, Prec.NONE, Prec.NONE, Prec.NONE, Prec.NONE⟩ = true := by decide +kernel
example : checks (L0.parseTimeInterval (c! "-0200/0200"))
    ⟨c! "-0200-01-01T00:00:00Z", 0, false, false, Prec.NONE, Prec.NONE, Prec.NONE, Prec.NONE⟩
    ⟨c! "-0200-12-31T23:59:59Z", 0, false, false, Prec.NONE, Prec.NONE, Prec.NONE, Prec.NONE⟩
    ⟨c! "0200-01-01T00:00:00Z", 0, false, false, Prec.NONE, Prec.NONE, Prec.NONE, Prec.NONE⟩
    ⟨c! "0200-12-31T23:59:59Z", 0, false, false, Prec.NONE, Prec.NONE, Prec.NONE, Prec.NONE⟩ = true := by decide +kernel
example : checks (L0.parseTimeInterval (c! "-1200-06/0200-05-02"))
    ⟨c! "-1200-06-01T00:00:00Z", 0, false, false, Prec.NONE, Prec.NONE, Prec.NONE, Prec.NONE⟩
    ⟨c! "-1200-06-30T23:59:59Z", 0, false, false, Prec.NONE, Prec.NONE, Prec.NONE, Prec.NONE⟩
    ⟨c! "0200-05-02T00:00:00Z", 0, false, false, Prec.NONE, Prec.NONE, Prec.NONE, Prec.NONE⟩
    ⟨c! "0200-05-02T23:59:59Z", 0, false, false, Prec.NONE, Prec.NONE, Prec.NONE, Prec.NONE⟩ = true := by decide +kernel
/-! level1/tests.go: LETTER_PREFIXED_CALENDAR_YEAR -/
example : checks (L1.parseLetterPrefixedCalendarYear (c! "Y170000002"))
    ⟨c! "", 0, false, false, Prec.NONE, Prec.NONE, Prec.NONE, Prec.NONE⟩
    ⟨c! "", 0, false, false, Prec.NONE, Prec.NONE, Prec.NONE, Prec.NONE⟩
    ⟨c! "", 0, false, false, Prec.NONE, Prec.NONE, Prec.NONE, Prec.NONE⟩
    ⟨c! "", 0, false, false, Prec.NONE, Prec.NONE, Prec.NONE, Prec.NONE⟩ = true := by decide +kernel
example : checks (L1.parseLetterPrefixedCalendarYear (c! "Y-17000002"))
    ⟨c! "", 0, false, false, Prec.NONE, Prec.NONE, Prec.NONE, Prec.NONE⟩
    ⟨c! "", 0, false, false, Prec.NONE, Prec.NONE, Prec.NONE, Prec.NONE⟩
    ⟨c! "", 0, false, false, Prec.NONE, Prec.NONE, Prec.NONE, Prec.NONE⟩
    ⟨c! "", 0, false, false, Prec.NONE, Prec.NONE, Prec.NONE, Prec.NONE⟩ = true := by decide +kernel
example : checks (L1.parseLetterPrefixedCalendarYear (c! "Y1700"))
    ⟨c! "1700-01-01T00:00:00Z", 0, false, false, Prec.NONE, Prec.NONE, Prec.NONE, Prec.NONE⟩
    ⟨c! "1700-01-01T23:59:59Z", 0, false, false, Prec.NONE, Prec.NONE, Prec.NONE, Prec.NONE⟩
    ⟨c! "1700-12-31T00:00:00Z", 0, false, false, Prec.NONE, Prec.NONE, Prec.NONE, Prec.NONE⟩
    ⟨c! "1700-12-31T23:59:59Z", 0, false, false, Prec.NONE, Prec.NONE, Prec.NONE, Prec.NONE⟩ = true := by decide +kernel
example : checks (L1.parseLetterPrefixedCalendarYear (c! "Y-1200"))
    ⟨c! "-1200-01-01T00:00:00Z", 0, false, false, Prec.NONE, Prec.NONE, Prec.NONE, Prec.NONE⟩
    ⟨c! "-1200-01-01T23:59:59Z", 0, false, false, Prec.NONE, Prec.NONE, Prec.NONE, Prec.NONE⟩
    ⟨c! "-1200-12-31T00:00:00Z", 0, false, false, Prec.NONE, Prec.NONE, Prec.NONE, Prec.NONE⟩
    ⟨c! "-1200-12-31T23:59:59Z", 0, false, false, Prec.NONE, Prec.NONE, Prec.NONE, Prec.NONE⟩ = true := by decide +kernel
/-! level1/tests.go: SEASON -/
example : checks (L1.parseSeason (c! "2001-01"))
    ⟨c! "2001-01-01T00:00:00Z", 0, false, false, Prec.NONE, Prec.NONE, Prec.NONE, Prec.NONE⟩
    ⟨c! "2001-01-01T23:59:59Z", 0, false, false, Prec.NONE, Prec.NONE, Prec.NONE, Prec.NONE⟩
    ⟨c! "2001-01-31T00:00:00Z", 0, false, false, Prec.NONE, Prec.NONE, Prec.NONE, Prec.NONE⟩
    ⟨c! "2001-01-31T23:59:59Z", 0, false, false, Prec.NONE, Prec.NONE, Prec.NONE, Prec.NONE⟩ = true := by decide +kernel
example : checks (L1.parseSeason (c! "2019-24"))
    ⟨c! "2019-12-01T00:00:00Z", 0, false, false, Prec.NONE, Prec.NONE, Prec.NONE, Prec.NONE⟩
    ⟨c! "2019-12-01T23:59:59Z", 0, false, false, Prec.NONE, Prec.NONE, Prec.NONE, Prec.NONE⟩
    ⟨c! "2020-02-29T00:00:00Z", 0, false, false, Prec.NONE, Prec.NONE, Prec.NONE, Prec.NONE⟩
    ⟨c! "2020-02-29T23:59:59Z", 0, false, false, Prec.NONE, Prec.NONE, Prec.NONE, Prec.NONE⟩ = true := by decide +kernel
example : checks (L1.parseSeason (c! "Spring, 2002"))
    ⟨c! "2002-03-01T00:00:00Z", 0, false, false, Prec.NONE, Prec.NONE, Prec.NONE, Prec.NONE⟩
    ⟨c! "2002-03-01T23:59:59Z", 0, false, false, Prec.NONE, Prec.NONE, Prec.NONE, Prec.NONE⟩
    ⟨c! "2002-05-31T00:00:00Z", 0, false, false, Prec.NONE, Prec.NONE, Prec.NONE, Prec.NONE⟩
    ⟨c! "2002-05-31T23:59:59Z", 0, false, false, Prec.NONE, Prec.NONE, Prec.NONE, Prec.NONE⟩ = true := by decide +kernel
example : checks (L1.parseSeason (c! "winter, 2002"))
    ⟨c! "2002-12-01T00:00:00Z", 0, false, false, Prec.NONE, Prec.NONE, Prec.NONE, Prec.NONE⟩
    ⟨c! "2002-12-01T23:59:59Z", 0, false, false, Prec.NONE, Prec.NONE, Prec.NONE, Prec.NONE⟩
    ⟨c! "2003-02-28T00:00:00Z", 0, false, false, Prec.NONE, Prec.NONE, Prec.NONE, Prec.NONE⟩
    ⟨c! "2003-02-28T23:59:59Z", 0, false, false, Prec.NONE, Prec.NONE, Prec.NONE, Prec.NONE⟩ = true := by decide +kernel
/-! level1/tests.go: QUALIFIED_DATE -/
example : checks (L1.parseQualifiedDate (c! "1984?"))
    ⟨c! "1984-01-01T00:00:00Z", 0, false, false, Prec.NONE, Prec.NONE, Prec.NONE, Prec.NONE⟩
    ⟨c! "1984-01-01T23:59:59Z", 0, false, false, Prec.NONE, Prec.YEAR, Prec.NONE, Prec.NONE⟩
    ⟨c! "1984-12-31T00:00:00Z", 0, false, false, Prec.NONE, Prec.NONE, Prec.NONE, Prec.NONE⟩
    ⟨c! "1984-12-31T23:59:59Z", 0, false, false, Prec.NONE, Prec.NONE, Prec.NONE, Prec.NONE⟩ = true := by decide +kernel
example : checks (L1.parseQualifiedDate (c! "2004-06~"))
    ⟨c! "2004-06-01T00:00:00Z", 0, false, false, Prec.NONE, Prec.NONE, Prec.NONE, Prec.NONE⟩
    ⟨c! "2004-06-01T23:59:59Z", 0, false, false, Prec.NONE, Prec.NONE, Prec.NONE, Prec.NONE⟩
    ⟨c! "2004-06-30T00:00:00Z", 0, false, false, Prec.NONE, Prec.NONE, Prec.MONTH, Prec.NONE⟩
    ⟨c! "2004-06-30T23:59:59Z", 0, false, false, Prec.NONE, Prec.NONE, Prec.NONE, Prec.NONE⟩ = true := by decide +kernel
example : checks (L1.parseQualifiedDate (c! "2004-06-11%"))
    ⟨c! "2004-06-11T00:00:00Z", 0, false, false, Prec.NONE, Prec.NONE, Prec.NONE, Prec.NONE⟩
    ⟨c! "2004-06-11T00:00:00Z", 0, false, false, Prec.NONE, Prec.NONE, Prec.NONE, Prec.NONE⟩
    ⟨c! "2004-06-11T23:59:59Z", 0, false, false, Prec.NONE, Prec.DAY, Prec.DAY, Prec.NONE⟩
    ⟨c! "2004-06-11T23:59:59Z", 0, false, false, Prec.NONE, Prec.NONE, Prec.NONE, Prec.NONE⟩ = true := by decide +kernel
/-! level1/tests.go: UNSPECIFIED_DIGITS -/
example : checks (L1.parseUnspecifiedDigits (c! "201X"))
    ⟨c! "2010-01-01T00:00:00Z", 0, false, false, Prec.NONE, Prec.NONE, Prec.NONE, Prec.NONE⟩
    ⟨c! "2010-01-01T23:59:59Z", 0, false, false, Prec.DECADE, Prec.NONE, Prec.NONE, Prec.NONE⟩
    ⟨c! "2019-12-31T00:00:00Z", 0, false, false, Prec.NONE, Prec.NONE, Prec.NONE, Prec.NONE⟩
    ⟨c! "2019-12-31T23:59:59Z", 0, false, false, Prec.NONE, Prec.NONE, Prec.NONE, Prec.NONE⟩ = true := by decide +kernel
example : checks (L1.parseUnspecifiedDigits (c! "20XX"))
    ⟨c! "2000-01-01T00:00:00Z", 0, false, false, Prec.NONE, Prec.NONE, Prec.NONE, Prec.NONE⟩
    ⟨c! "2000-01-01T23:59:59Z", 0, false, false, Prec.CENTURY, Prec.NONE, Prec.NONE, Prec.NONE⟩
    ⟨c! "2099-12-31T00:00:00Z", 0, false, false, Prec.NONE, Prec.NONE, Prec.NONE, Prec.NONE⟩
    ⟨c! "2099-12-31T23:59:59Z", 0, false, false, Prec.NONE, Prec.NONE, Prec.NONE, Prec.NONE⟩ = true := by decide +kernel
example : checks (L1.parseUnspecifiedDigits (c! "2004-XX"))
    ⟨c! "2004-01-01T00:00:00Z", 0, false, false, Prec.NONE, Prec.NONE, Prec.NONE, Prec.NONE⟩
    ⟨c! "2004-01-01T23:59:59Z", 0, false, false, Prec.YEAR, Prec.NONE, Prec.NONE, Prec.NONE⟩
    ⟨c! "2004-12-31T00:00:00Z", 0, false, false, Prec.NONE, Prec.NONE, Prec.NONE, Prec.NONE⟩
    ⟨c! "2004-12-31T23:59:59Z", 0, false, false, Prec.NONE, Prec.NONE, Prec.NONE, Prec.NONE⟩ = true := by decide +kernel
example : checks (L1.parseUnspecifiedDigits (c! "1985-04-XX"))
    ⟨c! "1985-04-01T00:00:00Z", 0, false, false, Prec.NONE, Prec.NONE, Prec.NONE, Prec.NONE⟩
    ⟨c! "1985-04-01T23:59:59Z", 0, false, false, Prec.MONTH, Prec.NONE, Prec.NONE, Prec.NONE⟩
    ⟨c! "1985-04-30T00:00:00Z", 0, false, false, Prec.NONE, Prec.NONE, Prec.NONE, Prec.NONE⟩
    ⟨c! "1985-04-30T23:59:59Z", 0, false, false, Prec.NONE, Prec.NONE, Prec.NONE, Prec.NONE⟩ = true := by decide +kernel
example : checks (L1.parseUnspecifiedDigits (c! "1985-XX-XX"))
    ⟨c! "1985-01-01T00:00:00Z", 0, false, false, Prec.NONE, Prec.NONE, Prec.NONE, Prec.NONE⟩
    ⟨c! "1985-01-01T23:59:59Z", 0, false, false, Prec.YEAR, Prec.NONE, Prec.NONE, Prec.NONE⟩
    ⟨c! "1985-12-31T00:00:00Z", 0, false, false, Prec.NONE, Prec.NONE, Prec.NONE, Prec.NONE⟩
    ⟨c! "1985-12-31T23:59:59Z", 0, false, false, Prec.NONE, Prec.NONE, Prec.NONE, Prec.NONE⟩ = true := by decide +kernel
/-! level1/tests.go: EXTENDED_INTERVAL_START -/
example : checks (L1.parseExtendedIntervalStart (c! "../1985-04-12"))
    ⟨c! "", 0, true, false, Prec.NONE, Prec.NONE, Prec.NONE, Prec.NONE⟩
    ⟨c! "", 0, true, false, Prec.NONE, Prec.NONE, Prec.NONE, Prec.NONE⟩
    ⟨c! "1985-04-12T00:00:00Z", 0, false, false, Prec.NONE, Prec.NONE, Prec.NONE, Prec.NONE⟩
    ⟨c! "1985-04-12T23:59:59Z", 0, false, false, Prec.NONE, Prec.NONE, Prec.NONE, Prec.NONE⟩ = true := by decide +kernel
example : checks (L1.parseExtendedIntervalStart (c! "../1985-04"))
    ⟨c! "", 0, true, false, Prec.NONE, Prec.NONE, Prec.NONE, Prec.NONE⟩
    ⟨c! "", 0, true, false, Prec.NONE, Prec.NONE, Prec.NONE, Prec.NONE⟩
    ⟨c! "1985-04-01T00:00:00Z", 0, false, false, Prec.NONE, Prec.NONE, Prec.NONE, Prec.NONE⟩
    ⟨c! "1985-04-30T23:59:59Z", 0, false, false, Prec.NONE, Prec.NONE, Prec.NONE, Prec.NONE⟩ = true := by decide +kernel
example : checks (L1.parseExtendedIntervalStart (c! "../1985"))
    ⟨c! "", 0, true, false, Prec.NONE, Prec.NONE, Prec.NONE, Prec.NONE⟩
    ⟨c! "", 0, true, false, Prec.NONE, Prec.NONE, Prec.NONE, Prec.NONE⟩
    ⟨c! "1985-01-01T00:00:00Z", 0, false, false, Prec.NONE, Prec.NONE, Prec.NONE, Prec.NONE⟩
    ⟨c! "1985-12-31T23:59:59Z", 0, false, false, Prec.NONE, Prec.NONE, Prec.NONE, Prec.NONE⟩ = true := by decide +kernel
example : checks (L1.parseExtendedIntervalStart (c! "/1985-04-12"))
    ⟨c! "", 0, false, true, Prec.NONE, Prec.NONE, Prec.NONE, Prec.NONE⟩
    ⟨c! "", 0, false, true, Prec.NONE, Prec.NONE, Prec.NONE, Prec.NONE⟩
    ⟨c! "1985-04-12T00:00:00Z", 0, false, false, Prec.NONE, Prec.NONE, Prec.NONE, Prec.NONE⟩
    ⟨c! "1985-04-12T23:59:59Z", 0, false, false, Prec.NONE, Prec.NONE, Prec.NONE, Prec.NONE⟩ = true := by decide +kernel
example : checks (L1.parseExtendedIntervalStart (c! "/1985-04"))
    ⟨c! "", 0, false, true, Prec.NONE, Prec.NONE, Prec.NONE, Prec.NONE⟩
    ⟨c! "", 0, false, true, Prec.NONE, Prec.NONE, Prec.NONE, Prec.NONE⟩
    ⟨c! "1985-04-01T00:00:00Z", 0, false, false, Prec.NONE, Prec.NONE, Prec.NONE, Prec.NONE⟩
    ⟨c! "1985-04-30T23:59:59Z", 0, false, false, Prec.NONE, Prec.NONE, Prec.NONE, Prec.NONE⟩ = true := by decide +kernel
example : checks (L1.parseExtendedIntervalStart (c! "/1985"))
    ⟨c! "", 0, false, true, Prec.NONE, Prec.NONE, Prec.NONE, Prec.NONE⟩
    ⟨c! "", 0, false, true, Prec.NONE, Prec.NONE, Prec.NONE, Prec.NONE⟩
    ⟨c! "1985-01-01T00:00:00Z", 0, false, false, Prec.NONE, Prec.NONE, Prec.NONE, Prec.NONE⟩
    ⟨c! "1985-12-31T23:59:59Z", 0, false, false, Prec.NONE, Prec.NONE, Prec.NONE, Prec.NONE⟩ = true := by decide +kernel
/-! level1/tests.go: EXTENDED_INTERVAL_END -/
example : checks (L1.parseExtendedIntervalEnd (c! "1985-04-12/.."))
    ⟨c! "1985-04-12T00:00:00Z", 0, false, false, Prec.NONE, Prec.NONE, Prec.NONE, Prec.NONE⟩
    ⟨c! "1985-04-12T23:59:59Z", 0, false, false, Prec.NONE, Prec.NONE, Prec.NONE, Prec.NONE⟩
    ⟨c! "", 0, true, false, Prec.NONE, Prec.NONE, Prec.NONE, Prec.NONE⟩
    ⟨c! "", 0, true, false, Prec.NONE, Prec.NONE, Prec.NONE, Prec.NONE⟩ = true := by decide +kernel
example : checks (L1.parseExtendedIntervalEnd (c! "1985-04/.."))
    ⟨c! "1985-04-01T00:00:00Z", 0, false, false, Prec.NONE, Prec.NONE, Prec.NONE, Prec.NONE⟩
    ⟨c! "1985-04-30T23:59:59Z", 0, false, false, Prec.NONE, Prec.NONE, Prec.NONE, Prec.NONE⟩
    ⟨c! "", 0, true, false, Prec.NONE, Prec.NONE, Prec.NONE, Prec.NONE⟩
    ⟨c! "", 0, true, false, Prec.NONE, Prec.NONE, Prec.NONE, Prec.NONE⟩ = true := by decide +kernel
example : checks (L1.parseExtendedIntervalEnd (c! "1985/.."))
    ⟨c! "1985-01-01T00:00:00Z", 0, false, false, Prec.NONE, Prec.NONE, Prec.NONE, Prec.NONE⟩
    ⟨c! "1985-12-31T23:59:59Z", 0, false, false, Prec.NONE, Prec.NONE, Prec.NONE, Prec.NONE⟩
    ⟨c! "", 0, true, false, Prec.NONE, Prec.NONE, Prec.NONE, Prec.NONE⟩
    ⟨c! "", 0, true, false, Prec.NONE, Prec.NONE, Prec.NONE, Prec.NONE⟩ = true := by decide +kernel
example : checks (L1.parseExtendedIntervalEnd (c! "1985-04-12/"))
    ⟨c! "1985-04-12T00:00:00Z", 0, false, false, Prec.NONE, Prec.NONE, Prec.NONE, Prec.NONE⟩
    ⟨c! "1985-04-12T23:59:59Z", 0, false, false, Prec.NONE, Prec.NONE, Prec.NONE, Prec.NONE⟩
    ⟨c! "", 0, false, true, Prec.NONE, Prec.NONE, Prec.NONE, Prec.NONE⟩
    ⟨c! "", 0, false, true, Prec.NONE, Prec.NONE, Prec.NONE, Prec.NONE⟩ = true := by decide +kernel
example : checks (L1.parseExtendedIntervalEnd (c! "1985-04/"))
    ⟨c! "1985-04-01T00:00:00Z", 0, false, false, Prec.NONE, Prec.NONE, Prec.NONE, Prec.NONE⟩
    ⟨c! "1985-04-30T23:59:59Z", 0, false, false, Prec.NONE, Prec.NONE, Prec.NONE, Prec.NONE⟩
    ⟨c! "", 0, false, true, Prec.NONE, Prec.NONE, Prec.NONE, Prec.NONE⟩
    ⟨c! "", 0, false, true, Prec.NONE, Prec.NONE, Prec.NONE, Prec.NONE⟩ = true := by decide +kernel
example : checks (L1.parseExtendedIntervalEnd (c! "1985/"))
    ⟨c! "1985-01-01T00:00:00Z", 0, false, false, Prec.NONE, Prec.NONE, Prec.NONE, Prec.NONE⟩
    ⟨c! "1985-12-31T23:59:59Z", 0, false, false, Prec.NONE, Prec.NONE, Prec.NONE, Prec.NONE⟩
    ⟨c! "", 0, false, true, Prec.NONE, Prec.NONE, Prec.NONE, Prec.NONE⟩
    ⟨c! "", 0, false, true, Prec.NONE, Prec.NONE, Prec.NONE, Prec.NONE⟩ = true := by decide +kernel
/-! level1/tests.go: NEGATIVE_CALENDAR_YEAR -/
example : checks (L1.parseNegativeCalendarYear (c! "-1985"))
    ⟨c! "-1985-01-01T00:00:00Z", 0, false, false, Prec.NONE, Prec.NONE, Prec.NONE, Prec.NONE⟩
    ⟨c! "-1985-01-01T23:59:59Z", 0, false, false, Prec.NONE, Prec.NONE, Prec.NONE, Prec.NONE⟩
    ⟨c! "-1985-12-31T00:00:00Z", 0, false, false, Prec.NONE, Prec.NONE, Prec.NONE, Prec.NONE⟩
    ⟨c! "-1985-12-31T23:59:59Z", 0, false, false, Prec.NONE, Prec.NONE, Prec.NONE, Prec.NONE⟩ = true := by decide +kernel
/-! level2/tests.go: EXPONENTIAL_YEAR -/
example : checks (L2.parseExponentialYear (c! "Y-17E7"))
    ⟨c! "", 0, false, false, Prec.NONE, Prec.NONE, Prec.NONE, Prec.NONE⟩
    ⟨c! "", 0, false, false, Prec.NONE, Prec.NONE, Prec.NONE, Prec.NONE⟩
    ⟨c! "", 0, false, false, Prec.NONE, Prec.NONE, Prec.NONE, Prec.NONE⟩
    ⟨c! "", 0, false, false, Prec.NONE, Prec.NONE, Prec.NONE, Prec.NONE⟩ = true := by decide +kernel
example : checks (L2.parseExponentialYear (c! "Y10E7"))
    ⟨c! "", 0, false, false, Prec.NONE, Prec.NONE, Prec.NONE, Prec.NONE⟩
    ⟨c! "", 0, false, false, Prec.NONE, Prec.NONE, Prec.NONE, Prec.NONE⟩
    ⟨c! "", 0, false, false, Prec.NONE, Prec.NONE, Prec.NONE, Prec.NONE⟩
    ⟨c! "", 0, false, false, Prec.NONE, Prec.NONE, Prec.NONE, Prec.NONE⟩ = true := by decide +kernel
example : checks (L2.parseExponentialYear (c! "Y20E2"))
    ⟨c! "2000-01-01T00:00:00Z", 0, false, false, Prec.NONE, Prec.NONE, Prec.NONE, Prec.NONE⟩
    ⟨c! "2000-01-01T23:59:59Z", 0, false, false, Prec.NONE, Prec.NONE, Prec.NONE, Prec.NONE⟩
    ⟨c! "2000-12-31T00:00:00Z", 0, false, false, Prec.NONE, Prec.NONE, Prec.NONE, Prec.NONE⟩
    ⟨c! "2000-12-31T23:59:59Z", 0, false, false, Prec.NONE, Prec.NONE, Prec.NONE, Prec.NONE⟩ = true := by decide +kernel
/-! level2/tests.go: SIGNIFICANT_DIGITS -/
example : checks (L2.parseSignificantDigits (c! "1950S2"))
    ⟨c! "1900-01-01T00:00:00Z", 0, false, false, Prec.NONE, Prec.NONE, Prec.NONE, Prec.NONE⟩
    ⟨c! "1900-12-31T23:59:59Z", 0, false, false, Prec.NONE, Prec.NONE, Prec.NONE, Prec.NONE⟩
    ⟨c! "1999-01-01T00:00:00Z", 0, false, false, Prec.NONE, Prec.NONE, Prec.NONE, Prec.NONE⟩
    ⟨c! "1999-12-31T23:59:59Z", 0, false, false, Prec.NONE, Prec.NONE, Prec.NONE, Prec.NONE⟩ = true := by decide +kernel
example : checks (L2.parseSignificantDigits (c! "Y171010000S3"))
    ⟨c! "", 0, false, false, Prec.NONE, Prec.NONE, Prec.NONE, Prec.NONE⟩
    ⟨c! "", 0, false, false, Prec.NONE, Prec.NONE, Prec.NONE, Prec.NONE⟩
    ⟨c! "", 0, false, false, Prec.NONE, Prec.NONE, Prec.NONE, Prec.NONE⟩
    ⟨c! "", 0, false, false, Prec.NONE, Prec.NONE, Prec.NONE, Prec.NONE⟩ = true := by decide +kernel
example : checks (L2.parseSignificantDigits (c! "Y-20E2S3"))
    ⟨c! "-2999-01-01T00:00:00Z", 0, false, false, Prec.NONE, Prec.NONE, Prec.NONE, Prec.NONE⟩
    ⟨c! "-2999-12-31T23:59:59Z", 0, false, false, Prec.NONE, Prec.NONE, Prec.NONE, Prec.NONE⟩
    ⟨c! "-2000-01-01T00:00:00Z", 0, false, false, Prec.NONE, Prec.NONE, Prec.NONE, Prec.NONE⟩
    ⟨c! "-2000-12-31T23:59:59Z", 0, false, false, Prec.NONE, Prec.NONE, Prec.NONE, Prec.NONE⟩ = true := by decide +kernel
example : checks (L2.parseSignificantDigits (c! "Y3388E2S3"))
    ⟨c! "", 0, false, false, Prec.NONE, Prec.NONE, Prec.NONE, Prec.NONE⟩
    ⟨c! "", 0, false, false, Prec.NONE, Prec.NONE, Prec.NONE, Prec.NONE⟩
    ⟨c! "", 0, false, false, Prec.NONE, Prec.NONE, Prec.NONE, Prec.NONE⟩
    ⟨c! "", 0, false, false, Prec.NONE, Prec.NONE, Prec.NONE, Prec.NONE⟩ = true := by decide +kernel
/-! level2/tests.go: SUB_YEAR_GROUPINGS -/
example : checks (L2.parseSubYearGroupings (c! "2001-34"))
    ⟨c! "2001-04-01T00:00:00Z", 0, false, false, Prec.NONE, Prec.NONE, Prec.NONE, Prec.NONE⟩
    ⟨c! "2001-04-01T23:59:59Z", 0, false, false, Prec.NONE, Prec.NONE, Prec.NONE, Prec.NONE⟩
    ⟨c! "2001-06-30T00:00:00Z", 0, false, false, Prec.NONE, Prec.NONE, Prec.NONE, Prec.NONE⟩
    ⟨c! "2001-06-30T23:59:59Z", 0, false, false, Prec.NONE, Prec.NONE, Prec.NONE, Prec.NONE⟩ = true := by decide +kernel
example : checks (L2.parseSubYearGroupings (c! "2019-28"))
    ⟨c! "2019-12-01T00:00:00Z", 0, false, false, Prec.NONE, Prec.NONE, Prec.NONE, Prec.NONE⟩
    ⟨c! "2019-12-01T23:59:59Z", 0, false, false, Prec.NONE, Prec.NONE, Prec.NONE, Prec.NONE⟩
    ⟨c! "2020-02-01T00:00:00Z", 0, false, false, Prec.NONE, Prec.NONE, Prec.NONE, Prec.NONE⟩
    ⟨c! "2020-02-29T23:59:59Z", 0, false, false, Prec.NONE, Prec.NONE, Prec.NONE, Prec.NONE⟩ = true := by decide +kernel
/-! level2/tests.go: SET_REPRESENTATIONS -/
example : checks (L2.parseSetRepresentations (c! "[1760-01,1760-02,1760-12..]"))
    ⟨c! "1760-01-01T00:00:00Z", 0, false, false, Prec.NONE, Prec.NONE, Prec.NONE, Prec.ANY⟩
    ⟨c! "1760-12-31T23:59:59Z", 0, false, false, Prec.NONE, Prec.NONE, Prec.NONE, Prec.NONE⟩
    ⟨c! "", 0, true, false, Prec.NONE, Prec.NONE, Prec.NONE, Prec.NONE⟩
    ⟨c! "", 0, true, false, Prec.NONE, Prec.NONE, Prec.NONE, Prec.NONE⟩ = true := by decide +kernel
example : checks (L2.parseSetRepresentations (c! "[1667,1668,1670..1672]"))
    ⟨c! "1667-01-01T00:00:00Z", 0, false, false, Prec.NONE, Prec.NONE, Prec.NONE, Prec.ANY⟩
    ⟨c! "1667-12-31T23:59:59Z", 0, false, false, Prec.NONE, Prec.NONE, Prec.NONE, Prec.NONE⟩
    ⟨c! "1672-01-01T00:00:00Z", 0, false, false, Prec.NONE, Prec.NONE, Prec.NONE, Prec.NONE⟩
    ⟨c! "1672-12-31T23:59:59Z", 0, false, false, Prec.NONE, Prec.NONE, Prec.NONE, Prec.ANY⟩ = true := by decide +kernel
example : checks (L2.parseSetRepresentations (c! "[..1760-12-03]"))
    ⟨c! "", 0, true, false, Prec.NONE, Prec.NONE, Prec.NONE, Prec.NONE⟩
    ⟨c! "", 0, true, false, Prec.NONE, Prec.NONE, Prec.NONE, Prec.NONE⟩
    ⟨c! "1760-12-03T00:00:00Z", 0, false, false, Prec.NONE, Prec.NONE, Prec.NONE, Prec.NONE⟩
    ⟨c! "1760-12-03T23:59:59Z", 0, false, false, Prec.NONE, Prec.NONE, Prec.NONE, Prec.ANY⟩ = true := by decide +kernel
example : checks (L2.parseSetRepresentations (c! "[1760-12..]"))
    ⟨c! "1760-12-01T00:00:00Z", 0, false, false, Prec.NONE, Prec.NONE, Prec.NONE, Prec.NONE⟩
    ⟨c! "1760-12-31T23:59:59Z", 0, false, false, Prec.NONE, Prec.NONE, Prec.NONE, Prec.ANY⟩
    ⟨c! "", 0, true, false, Prec.NONE, Prec.NONE, Prec.NONE, Prec.NONE⟩
    ⟨c! "", 0, true, false, Prec.NONE, Prec.NONE, Prec.NONE, Prec.NONE⟩ = true := by decide +kernel
example : checks (L2.parseSetRepresentations (c! "[1667,1760-12]"))
    ⟨c! "1667-01-01T00:00:00Z", 0, false, false, Prec.NONE, Prec.NONE, Prec.NONE, Prec.NONE⟩
    ⟨c! "1667-12-31T23:59:59Z", 0, false, false, Prec.NONE, Prec.NONE, Prec.NONE, Prec.ANY⟩
    ⟨c! "1760-12-01T00:00:00Z", 0, false, false, Prec.NONE, Prec.NONE, Prec.NONE, Prec.ANY⟩
    ⟨c! "1760-12-31T23:59:59Z", 0, false, false, Prec.NONE, Prec.NONE, Prec.NONE, Prec.NONE⟩ = true := by decide +kernel
example : checks (L2.parseSetRepresentations (c! "[..1984]"))
    ⟨c! "", 0, true, false, Prec.NONE, Prec.NONE, Prec.NONE, Prec.NONE⟩
    ⟨c! "", 0, true, false, Prec.NONE, Prec.NONE, Prec.NONE, Prec.NONE⟩
    ⟨c! "1984-01-01T00:00:00Z", 0, false, false, Prec.NONE, Prec.NONE, Prec.NONE, Prec.ANY⟩
    ⟨c! "1984-12-31T23:59:59Z", 0, false, false, Prec.NONE, Prec.NONE, Prec.NONE, Prec.NONE⟩ = true := by decide +kernel
example : checks (L2.parseSetRepresentations (c! "{1667,1668,1670..1672}"))
    ⟨c! "1667-01-01T00:00:00Z", 0, false, false, Prec.NONE, Prec.NONE, Prec.NONE, Prec.NONE⟩
    ⟨c! "1667-12-31T23:59:59Z", 0, false, false, Prec.NONE, Prec.NONE, Prec.NONE, Prec.ALL⟩
    ⟨c! "1672-01-01T00:00:00Z", 0, false, false, Prec.NONE, Prec.NONE, Prec.NONE, Prec.ALL⟩
    ⟨c! "1672-12-31T23:59:59Z", 0, false, false, Prec.NONE, Prec.NONE, Prec.NONE, Prec.NONE⟩ = true := by decide +kernel
example : checks (L2.parseSetRepresentations (c! "{1960,1961-12}"))
    ⟨c! "1960-01-01T00:00:00Z", 0, false, false, Prec.NONE, Prec.NONE, Prec.NONE, Prec.NONE⟩
    ⟨c! "1960-12-31T23:59:59Z", 0, false, false, Prec.NONE, Prec.NONE, Prec.NONE, Prec.ALL⟩
    ⟨c! "1961-12-01T00:00:00Z", 0, false, false, Prec.NONE, Prec.NONE, Prec.NONE, Prec.ALL⟩
    ⟨c! "1961-12-31T23:59:59Z", 0, false, false, Prec.NONE, Prec.NONE, Prec.NONE, Prec.NONE⟩ = true := by decide +kernel
example : checks (L2.parseSetRepresentations (c! "{..1984}"))
    ⟨c! "", 0, true, false, Prec.NONE, Prec.NONE, Prec.NONE, Prec.NONE⟩
    ⟨c! "", 0, true, false, Prec.NONE, Prec.NONE, Prec.NONE, Prec.NONE⟩
    ⟨c! "1984-01-01T00:00:00Z", 0, false, false, Prec.NONE, Prec.NONE, Prec.NONE, Prec.ALL⟩
    ⟨c! "1984-12-31T23:59:59Z", 0, false, false, Prec.NONE, Prec.NONE, Prec.NONE, Prec.NONE⟩ = true := by decide +kernel
/-! level2/tests.go: GROUP_QUALIFICATION -/
example : checks (L2.parseGroupQualification (c! "2004-06-11%"))
    ⟨c! "2004-06-11T00:00:00Z", 0, false, false, Prec.NONE, Prec.NONE, Prec.NONE, Prec.NONE⟩
    ⟨c! "2004-06-11T00:00:00Z", 0, false, false, Prec.NONE, Prec.DAY, Prec.DAY, Prec.NONE⟩
    ⟨c! "2004-06-11T23:59:59Z", 0, false, false, Prec.NONE, Prec.MONTH, Prec.YEAR, Prec.NONE⟩
    ⟨c! "2004-06-11T23:59:59Z", 0, false, false, Prec.NONE, Prec.NONE, Prec.NONE, Prec.NONE⟩ = true := by decide +kernel
example : checks (L2.parseGroupQualification (c! "2004-06~-11"))
    ⟨c! "2004-06-11T00:00:00Z", 0, false, false, Prec.NONE, Prec.NONE, Prec.NONE, Prec.NONE⟩
    ⟨c! "2004-06-11T00:00:00Z", 0, false, false, Prec.NONE, Prec.NONE, Prec.NONE, Prec.NONE⟩
    ⟨c! "2004-06-11T23:59:59Z", 0, false, false, Prec.NONE, Prec.NONE, Prec.YEAR, Prec.NONE⟩
    ⟨c! "2004-06-11T23:59:59Z", 0, false, false, Prec.NONE, Prec.NONE, Prec.MONTH, Prec.NONE⟩ = true := by decide +kernel
example : checks (L2.parseGroupQualification (c! "2004?-06-11"))
    ⟨c! "2004-06-11T00:00:00Z", 0, false, false, Prec.NONE, Prec.NONE, Prec.NONE, Prec.NONE⟩
    ⟨c! "2004-06-11T00:00:00Z", 0, false, false, Prec.NONE, Prec.NONE, Prec.NONE, Prec.NONE⟩
    ⟨c! "2004-06-11T23:59:59Z", 0, false, false, Prec.NONE, Prec.YEAR, Prec.NONE, Prec.NONE⟩
    ⟨c! "2004-06-11T23:59:59Z", 0, false, false, Prec.NONE, Prec.NONE, Prec.NONE, Prec.NONE⟩ = true := by decide +kernel
/-! level2/tests.go: INDIVIDUAL_QUALIFICATION -/
example : checks (L2.parseIndividualQualification (c! "?2004-06-~11"))
    ⟨c! "2004-06-11T00:00:00Z", 0, false, false, Prec.NONE, Prec.NONE, Prec.NONE, Prec.NONE⟩
    ⟨c! "2004-06-11T00:00:00Z", 0, false, false, Prec.NONE, Prec.NONE, Prec.NONE, Prec.NONE⟩
    ⟨c! "2004-06-11T23:59:59Z", 0, false, false, Prec.NONE, Prec.NONE, Prec.NONE, Prec.NONE⟩
    ⟨c! "2004-06-11T23:59:59Z", 0, false, false, Prec.NONE, Prec.NONE, Prec.DAY, Prec.NONE⟩ = true := by decide +kernel
example : checks (L2.parseIndividualQualification (c! "2004-%06-11"))
    ⟨c! "2004-06-11T00:00:00Z", 0, false, false, Prec.NONE, Prec.NONE, Prec.NONE, Prec.NONE⟩
    ⟨c! "2004-06-11T00:00:00Z", 0, false, false, Prec.NONE, Prec.NONE, Prec.NONE, Prec.NONE⟩
    ⟨c! "2004-06-11T23:59:59Z", 0, false, false, Prec.NONE, Prec.NONE, Prec.NONE, Prec.NONE⟩
    ⟨c! "2004-06-11T23:59:59Z", 0, false, false, Prec.NONE, Prec.MONTH, Prec.MONTH, Prec.NONE⟩ = true := by decide +kernel
/-! level2/tests.go: UNSPECIFIED_DIGIT -/
example : checks (L2.parseUnspecifiedDigit (c! "156X-12-25"))
    ⟨c! "1560-12-25T00:00:00Z", 0, false, false, Prec.NONE, Prec.NONE, Prec.NONE, Prec.NONE⟩
    ⟨c! "1560-12-25T23:59:59Z", 0, false, false, Prec.DECADE, Prec.NONE, Prec.NONE, Prec.NONE⟩
    ⟨c! "1569-12-25T00:00:00Z", 0, false, false, Prec.NONE, Prec.NONE, Prec.NONE, Prec.NONE⟩
    ⟨c! "1569-12-25T23:59:59Z", 0, false, false, Prec.NONE, Prec.NONE, Prec.NONE, Prec.NONE⟩ = true := by decide +kernel
example : checks (L2.parseUnspecifiedDigit (c! "15XX-12-25"))
    ⟨c! "1500-12-25T00:00:00Z", 0, false, false, Prec.NONE, Prec.NONE, Prec.NONE, Prec.NONE⟩
    ⟨c! "1500-12-25T23:59:59Z", 0, false, false, Prec.CENTURY, Prec.NONE, Prec.NONE, Prec.NONE⟩
    ⟨c! "1599-12-25T00:00:00Z", 0, false, false, Prec.NONE, Prec.NONE, Prec.NONE, Prec.NONE⟩
    ⟨c! "1599-12-25T23:59:59Z", 0, false, false, Prec.NONE, Prec.NONE, Prec.NONE, Prec.NONE⟩ = true := by decide +kernel
example : checks (L2.parseUnspecifiedDigit (c! "1XXX-XX"))
    ⟨c! "1000-01-01T00:00:00Z", 0, false, false, Prec.NONE, Prec.NONE, Prec.NONE, Prec.NONE⟩
    ⟨c! "1000-01-01T23:59:59Z", 0, false, false, Prec.MILLENIUM, Prec.NONE, Prec.NONE, Prec.NONE⟩
    ⟨c! "1999-12-31T00:00:00Z", 0, false, false, Prec.NONE, Prec.NONE, Prec.NONE, Prec.NONE⟩
    ⟨c! "1999-12-31T23:59:59Z", 0, false, false, Prec.NONE, Prec.NONE, Prec.NONE, Prec.NONE⟩ = true := by decide +kernel
example : checks (L2.parseUnspecifiedDigit (c! "1XXX-12"))
    ⟨c! "1000-12-01T00:00:00Z", 0, false, false, Prec.NONE, Prec.NONE, Prec.NONE, Prec.NONE⟩
    ⟨c! "1000-12-01T23:59:59Z", 0, false, false, Prec.MILLENIUM, Prec.NONE, Prec.NONE, Prec.NONE⟩
    ⟨c! "1999-12-31T00:00:00Z", 0, false, false, Prec.NONE, Prec.NONE, Prec.NONE, Prec.NONE⟩
    ⟨c! "1999-12-31T23:59:59Z", 0, false, false, Prec.NONE, Prec.NONE, Prec.NONE, Prec.NONE⟩ = true := by decide +kernel
example : checks (L2.parseUnspecifiedDigit (c! "1984-1X"))
    ⟨c! "1984-10-01T00:00:00Z", 0, false, false, Prec.NONE, Prec.NONE, Prec.NONE, Prec.NONE⟩
    ⟨c! "1984-10-01T23:59:59Z", 0, false, false, Prec.MONTH, Prec.NONE, Prec.NONE, Prec.NONE⟩
    ⟨c! "1984-12-31T00:00:00Z", 0, false, false, Prec.NONE, Prec.NONE, Prec.NONE, Prec.NONE⟩
    ⟨c! "1984-12-31T23:59:59Z", 0, false, false, Prec.NONE, Prec.NONE, Prec.NONE, Prec.NONE⟩ = true := by decide +kernel
/-! level2/tests.go: INTERVAL -/
example : checks (L2.parseInterval (c! "2004-06-~01/2004-06-~20"))
    ⟨c! "2004-06-01T00:00:00Z", 0, false, false, Prec.NONE, Prec.NONE, Prec.NONE, Prec.NONE⟩
    ⟨c! "2004-06-01T23:59:59Z", 0, false, false, Prec.NONE, Prec.NONE, Prec.NONE, Prec.NONE⟩
    ⟨c! "2004-06-20T00:00:00Z", 0, false, false, Prec.NONE, Prec.NONE, Prec.NONE, Prec.NONE⟩
    ⟨c! "2004-06-20T23:59:59Z", 0, false, false, Prec.NONE, Prec.NONE, Prec.DAY, Prec.NONE⟩ = true := by decide +kernel
example : checks (L2.parseInterval (c! "2004-06-XX/2004-07-03"))
    ⟨c! "2004-06-01T00:00:00Z", 0, false, false, Prec.NONE, Prec.NONE, Prec.NONE, Prec.NONE⟩
    ⟨c! "2004-06-30T23:59:59Z", 0, false, false, Prec.NONE, Prec.NONE, Prec.NONE, Prec.NONE⟩
    ⟨c! "2004-07-03T00:00:00Z", 0, false, false, Prec.NONE, Prec.NONE, Prec.NONE, Prec.NONE⟩
    ⟨c! "2004-07-03T23:59:59Z", 0, false, false, Prec.NONE, Prec.NONE, Prec.NONE, Prec.NONE⟩ = true := by decide +kernel
example : checks (L2.parseInterval (c! "~-0100/~2020"))
    ⟨c! "-0100-01-01T00:00:00Z", 0, false, false, Prec.NONE, Prec.NONE, Prec.NONE, Prec.NONE⟩
    ⟨c! "-0100-12-31T23:59:59Z", 0, false, false, Prec.NONE, Prec.NONE, Prec.NONE, Prec.NONE⟩
    ⟨c! "2020-01-01T00:00:00Z", 0, false, false, Prec.NONE, Prec.NONE, Prec.NONE, Prec.NONE⟩
    ⟨c! "2020-12-31T23:59:59Z", 0, false, false, Prec.NONE, Prec.NONE, Prec.NONE, Prec.NONE⟩ = true := by decide +kernel
example : checks (L2.parseInterval (c! "~-0100/~-0010"))
    ⟨c! "-0100-01-01T00:00:00Z", 0, false, false, Prec.NONE, Prec.NONE, Prec.NONE, Prec.NONE⟩
    ⟨c! "-0100-12-31T23:59:59Z", 0, false, false, Prec.NONE, Prec.NONE, Prec.NONE, Prec.NONE⟩
    ⟨c! "-0010-01-01T00:00:00Z", 0, false, false, Prec.NONE, Prec.NONE, Prec.NONE, Prec.NONE⟩
    ⟨c! "-0010-12-31T23:59:59Z", 0, false, false, Prec.NONE, Prec.NONE, Prec.NONE, Prec.NONE⟩ = true := by decide +kernel
/-! parser/tests.go -/

/-! cmp/*_test.go -/
example : isAfter (c! "2021-09-10") (c! "2020-10-16") = .ok true := by decide +kernel
example : isAfter (c! "203X") (c! "2020-10-16") = .ok true := by decide +kernel
example : isBefore (c! "2017-09-10") (c! "2020-10-16") = .ok true := by decide +kernel
example : isBefore (c! "201X") (c! "2020-10-16") = .ok true := by decide +kernel
example : isBefore (c! "2020-09-XX") (c! "2020-10-16") = .ok true := by decide +kernel
/-! unix/range_test.go -/
example : Unix.deriveRanges (c! "2021-05-25") =
    .ok (some ⟨⟨1621900800, 1621987199⟩, ⟨1621900800, 1621987199⟩⟩) := by decide +kernel
example : Unix.deriveRanges (c! "2021-11-09") =
    .ok (some ⟨⟨1636416000, 1636502399⟩, ⟨1636416000, 1636502399⟩⟩) := by decide +kernel
example : Unix.deriveRanges (c! "..") = .ok none := by decide +kernel
example : Unix.deriveRanges [] = .ok none := by decide +kernel
/-! calendar/calendar_test.go -/
example : daysInMonthWithString (c! "2019-02") = .ok 28 := by decide +kernel
example : daysInMonthWithString (c! "2020-02") = .ok 29 := by decide +kernel
example : daysInMonthWithString (c! "1985-06") = .ok 30 := by decide +kernel
example : daysInMonthWithString (c! "1950-12") = .ok 31 := by decide +kernel
/-! common/*_test.go -/
example : ymdFromString (c! "2020-02") = .ok ⟨2020, 2, 29⟩ := by decide +kernel
example : ymdFromString (c! "1972-06") = .ok ⟨1972, 6, 30⟩ := by decide +kernel
example : ymdFromString (c! "1972") = .ok ⟨1972, 1, 31⟩ := by decide +kernel
example : ymdFromString (c! "-200-05-30") = .ok ⟨-200, 5, 30⟩ := by decide +kernel
example : flipYear (-1900) = 1900 := by decide +kernel
example : timeYear (timeToBCE 0) = -1970 := by decide +kernel
/-! edtf_test.go -/
example : isOpenStr OPEN ∧ isOpenStr OPEN_2012 ∧ ¬ isOpenStr [] ∧ ¬ isOpenStr (c! "2021-09-28") := by decide
example : isUnspecifiedStr UNSPECIFIED ∧ isUnspecifiedStr UNSPECIFIED_2012 ∧ ¬ isUnspecifiedStr (c! "2021-09-28") := by
  decide
example : isUnknownStr UNKNOWN ∧ isUnknownStr UNKNOWN_2012 ∧ ¬ isUnknownStr (c! "2021-09-28") := by decide
example : formatRFC3339 (-124965504000) = c! "-1990-01-01T00:00:00Z" := by decide +kernel
example : formatRFC3339 (-49512816001) = c! "0400-12-31T23:59:59Z" := by decide +kernel
/-! deprecated_test.go -/
example : isDeprecated OPEN_2012 ∧ isDeprecated UNSPECIFIED_2012 ∧ ¬ isDeprecated OPEN ∧ ¬ isDeprecated UNSPECIFIED := by
  decide
/-! cmp/between_test.go -/
example : isBetween (c! "2024-03-21") (c! "2022-12") (c! "2024-06-17") = .ok true := by decide +kernel
example : isBetween (c! "2024-03-21") (c! "2024~") (c! "2024-06-17") = .ok true := by decide +kernel
example : isBetween (c! "2024-03-21") (c! "2024~") (c! "2024~") = .ok true := by decide +kernel
example : isBetween (c! "2024-03-21") (c! "2024~") OPEN = .ok true := by decide +kernel
example : isBetween (c! "2024-06-18") (c! "2024-06-17") OPEN = .ok true := by decide +kernel
example : isBetween (c! "2021-03-21") (c! "2022-12") (c! "2024-06-17") = .ok false := by decide +kernel
example : isBetween (c! "2024-03-21") (c! "2024~") (c! "2024-02~") = .ok false := by decide +kernel
example : isBetween (c! "2021-03-21") (c! "1984-12") (c! "1996-12-08") = .ok false := by decide +kernel

end EDTF.Tests
