/-
re/re.go and re/{common,level0,level1,level2}.go: the pattern strings, the
syntax trees the model runs, and kernel-checked proofs that the trees are what
the strings parse to.
-/
import Verif.Regex
namespace EDTF
namespace Pat

/-! ### The pattern strings (re/re.go:9-69) -/

/-- re/re.go:9 -/
def YEAR : Str := c! r"(\-?\d{4})"
/-- re/re.go:13, edtf.go:8-10 -/
def QUALIFIER : Str := c! r"[\" ++ c! "?" ++ c! "~" ++ c! "%" ++ c! "]"
/-- re/re.go:15 -/
def YEAR_X : Str := c! r"\-?[0-9X]{4}"
/-- re/re.go:16 -/
def MONTH_X : Str := c! r"(?:[0X][1-9X]|[1X][0-2X])"
/-- re/re.go:17 -/
def DAY_X : Str := c! r"(?:[012X][0-9X]|[3X][01X])"
/-- re/re.go:19 -/
def YYYY : Str := c! "(" ++ QUALIFIER ++ c! "?" ++ YEAR_X ++ c! "|" ++ YEAR_X ++ QUALIFIER ++ c! "?)"
/-- re/re.go:20 -/
def MM : Str := c! "(" ++ QUALIFIER ++ c! "?" ++ MONTH_X ++ c! "|" ++ MONTH_X ++ QUALIFIER ++ c! "?)"
/-- re/re.go:21 -/
def DD : Str := c! "(" ++ QUALIFIER ++ c! "?" ++ DAY_X ++ c! "|" ++ DAY_X ++ QUALIFIER ++ c! "?)"
/-- re/re.go:23 -/
def YMD_X : Str := c! "^" ++ YYYY ++ c! r"(?:\-" ++ MM ++ c! r"(?:\-" ++ DD ++ c! ")?" ++ c! ")?$"
/-- re/re.go:25 -/
def DATE_X : Str := c! "(" ++ YEAR_X ++ c! "|(?:" ++ MONTH_X ++ c! ")|(?:" ++ DAY_X ++ c! "))"
/-- re/re.go:29 -/
def DATE : Str := c! r"(\-?\d{4})(?:-([0][1-9]|1[0-2])(?:-(0[1-9]|[12][0-9]|3[01]))?)?"
/-- re/re.go:31 -/
def DATE_AND_TIME : Str := DATE ++ c! r"T(\d{2}):(\d{2}):(\d{2})(Z|(\+|-)(\d{2})(\:(\d{2}))?)?"
/-- re/re.go:33 -/
def TIME_INTERVAL : Str := DATE ++ c! "/" ++ DATE
/-- re/re.go:37 -/
def LETTER_PREFIXED_CALENDAR_YEAR : Str := c! r"Y(\-?\d+)"
/-- re/re.go:39 -/
def SEASON : Str := YEAR ++ c! r"\-(0[1-9]|1[0-2]|2[1-4])|(?i)(spring|summer|fall|winter)\s*,\s*(\d{4})"
/-- re/re.go:41 -/
def QUALIFIED_DATE : Str := DATE ++ c! r"(\?|~|%)"
/-- re/re.go:43 -/
def UNSPECIFIED_DIGITS : Str := c! r"(?:([0-9X]{4})(?:-([0X][1-9X]|[1X][0-2X])(?:-([012X][1-9X]|[3X][01X]))?)?)"
/-- re/re.go:45 -/
def INTERVAL_START : Str := c! r"(\.\.)?\/" ++ DATE
/-- re/re.go:47 -/
def INTERVAL_END : Str := DATE ++ c! r"\/(\.\.)?"
/-- re/re.go:49 -/
def NEGATIVE_YEAR : Str := c! r"\-" ++ YEAR
/-- re/re.go:53 -/
def EXPONENTIAL_YEAR : Str := c! r"(?i)Y(\-?\d+E\d+)"
/-- re/re.go:55 -/
def SIGNIFICANT_DIGITS : Str :=
  c! "(?:" ++ YEAR ++ c! "|" ++ LETTER_PREFIXED_CALENDAR_YEAR ++ c! "|" ++ EXPONENTIAL_YEAR ++ c! r")S(\d+)"
/-- re/re.go:57 -/
def SUB_YEAR_GROUPING : Str := c! r"(\d{4})\-(1[0-2]|2[1-9]|3[0-9]|4[0-1])"
/-- re/re.go:61 -/
def SET_REPRESENTATIONS : Str :=
  c! r"(\[|\{)((?:\.\.)?(?:(?:" ++ DATE ++ c! r"(?:,|\.\.)?)+(?:\.\.)?))[\}\]]"
/-- re/re.go:63 -/
def GROUP_QUALIFICATION : Str := c! r"(?:(\d{4})(%|~|\?)?(?:-(\d{2})(%|~|\?)?(?:-(\d{2})(%|~|\?)?)?)?)"
/-- re/re.go:65 -/
def INDIVIDUAL_QUALIFICATION : Str := c! r"(?:(%|~|\?)?(\d{4})(?:-(%|~|\?)?(\d{2})(?:-(%|~|\?)?(\d{2}))?)?)"
/-- re/re.go:67 -/
def UNSPECIFIED_DIGIT : Str := c! r"([0-9X]{4})(?:-([0-9X]{2})(?:-([0-9X]{2}))?)?"
/-- re/re.go:69 -/
def INTERVAL : Str :=
  c! r"(%|~|\?)?(\-?[0-9X]{4})(?:-(%|~|\?)?([0-9X]{2})(?:-(%|~|\?)?([0-9X]{2}))?)?\/(%|~|\?)?(\-?[0-9X]{4})(?:-(%|~|\?)?([0-9X]{2})(?:-(%|~|\?)?([0-9X]{2}))?)?"

/-- `^` + p + `$` -/
def anchored (p : Str) : Str := c! "^" ++ p ++ c! "$"

/-- strings.Join(patterns, "|") -/
def joinBar : List Str → Str
  | [] => []
  | [p] => p
  | p :: ps => p ++ c! "|" ++ joinBar ps

/-- re/level0.go:22-28 -/
def LEVEL0 : Str := c! "^(" ++ joinBar [DATE, DATE_AND_TIME, TIME_INTERVAL] ++ c! ")$"
/-- re/level1.go:33-43 -/
def LEVEL1 : Str :=
  c! "^(" ++ joinBar [LETTER_PREFIXED_CALENDAR_YEAR, SEASON, QUALIFIED_DATE, UNSPECIFIED_DIGITS,
    INTERVAL_START, INTERVAL_END, NEGATIVE_YEAR] ++ c! ")$"
/-- re/level2.go:37-48 — note: no end anchor. -/
def LEVEL2 : Str :=
  c! "^" ++ c! "(" ++ joinBar [EXPONENTIAL_YEAR, SIGNIFICANT_DIGITS, SUB_YEAR_GROUPING,
    SET_REPRESENTATIONS, GROUP_QUALIFICATION, INDIVIDUAL_QUALIFICATION, UNSPECIFIED_DIGIT, INTERVAL] ++ c! ")"

end Pat

/-! ### The syntax trees -/

namespace Rx

def lit (c : Char) : Re := .cls false [(c, c)]
def digit : Re := .cls false [('0', '9')]
def digX : Re := .cls false [('0', '9'), ('X', 'X')]
def qual : Re := .cls false [('?', '?'), ('~', '~'), ('%', '%')]
def sp : Re := .cls false [('\t', '\n'), ('\x0c', '\r'), (' ', ' ')]

infixr:67 " ⬝ " => Re.cat
infixr:62 " ∥ " => Re.alt

/-- `-?dddd` -/
def year4 : Re := .opt (lit '-') ⬝ Re.rep digit 4
def yearX : Re := .opt (lit '-') ⬝ Re.rep digX 4
def monthX : Re :=
  (.cls false [('0', '0'), ('X', 'X')] ⬝ .cls false [('1', '9'), ('X', 'X')]) ∥
  (.cls false [('1', '1'), ('X', 'X')] ⬝ .cls false [('0', '2'), ('X', 'X')])
def dayX : Re :=
  (.cls false [('0', '0'), ('1', '1'), ('2', '2'), ('X', 'X')] ⬝ digX) ∥
  (.cls false [('3', '3'), ('X', 'X')] ⬝ .cls false [('0', '0'), ('1', '1'), ('X', 'X')])
def yyyy (g : Nat) : Re := .grp g ((.opt qual ⬝ yearX) ∥ (yearX ⬝ .opt qual))
def mm (g : Nat) : Re := .grp g ((.opt qual ⬝ monthX) ∥ (monthX ⬝ .opt qual))
def dd (g : Nat) : Re := .grp g ((.opt qual ⬝ dayX) ∥ (dayX ⬝ .opt qual))
def dateX (g : Nat) : Re := .grp g (yearX ∥ monthX ∥ dayX)

def month : Re :=
  (.cls false [('0', '0')] ⬝ .cls false [('1', '9')]) ∥ (lit '1' ⬝ .cls false [('0', '2')])
def day : Re :=
  (lit '0' ⬝ .cls false [('1', '9')]) ∥
  (.cls false [('1', '1'), ('2', '2')] ⬝ .cls false [('0', '9')]) ∥
  (lit '3' ⬝ .cls false [('0', '0'), ('1', '1')])

/-- PATTERN_DATE with groups g, g+1, g+2. -/
def date (g : Nat) : Re :=
  .grp g year4 ⬝ .opt (lit '-' ⬝ .grp (g + 1) month ⬝ .opt (lit '-' ⬝ .grp (g + 2) day))

def two (g : Nat) : Re := .grp g (Re.rep digit 2)

/-- `T..:..:..` and the zone, groups g .. g+7. -/
def timePart (g : Nat) : Re :=
  lit 'T' ⬝ two g ⬝ lit ':' ⬝ two (g + 1) ⬝ lit ':' ⬝ two (g + 2) ⬝
  .opt (.grp (g + 3) (lit 'Z' ∥
    (.grp (g + 4) (lit '+' ∥ lit '-') ⬝ two (g + 5) ⬝ .opt (.grp (g + 6) (lit ':' ⬝ two (g + 7))))))

def dateAndTime (g : Nat) : Re := date g ⬝ timePart (g + 3)
def timeInterval (g : Nat) : Re := date g ⬝ lit '/' ⬝ date (g + 3)

def letterPrefixed (g : Nat) : Re := lit 'Y' ⬝ .grp g (.opt (lit '-') ⬝ .plus digit)

/-- First alternative of PATTERN_SEASON: `(-?dddd)-(mm)`. -/
def seasonNum (g : Nat) : Re :=
  .grp g year4 ⬝ lit '-' ⬝ .grp (g + 1)
    ((lit '0' ⬝ .cls false [('1', '9')]) ∥ (lit '1' ⬝ .cls false [('0', '2')]) ∥
     (lit '2' ⬝ .cls false [('1', '4')]))

/-- A literal word, case-insensitive. -/
def word : List Char → Re
  | [] => .eps
  | [c] => .cls true [(c, c)]
  | c :: cs => .cls true [(c, c)] ⬝ word cs

/-- Second alternative of PATTERN_SEASON, under `(?i)`. -/
def seasonText (g : Nat) : Re :=
  .grp g (word (c! "spring") ∥ word (c! "summer") ∥ word (c! "fall") ∥ word (c! "winter")) ⬝
  .star sp.ci ⬝ (lit ',').ci ⬝ .star sp.ci ⬝ .grp (g + 1) (Re.rep digit.ci 4)

def qualAlt (g : Nat) (a b c : Char) : Re := .grp g (lit a ∥ lit b ∥ lit c)

def qualifiedDate (g : Nat) : Re := date g ⬝ qualAlt (g + 3) '?' '~' '%'

def unspecifiedDigits (g : Nat) : Re :=
  .grp g (Re.rep digX 4) ⬝ .opt (lit '-' ⬝ .grp (g + 1) monthX ⬝
    .opt (lit '-' ⬝ .grp (g + 2)
      ((.cls false [('0', '0'), ('1', '1'), ('2', '2'), ('X', 'X')] ⬝ .cls false [('1', '9'), ('X', 'X')]) ∥
       (.cls false [('3', '3'), ('X', 'X')] ⬝ .cls false [('0', '0'), ('1', '1'), ('X', 'X')]))))

def dots : Re := lit '.' ⬝ lit '.'

def intervalStart (g : Nat) : Re := .opt (.grp g dots) ⬝ lit '/' ⬝ date (g + 1)
def intervalEnd (g : Nat) : Re := date g ⬝ lit '/' ⬝ .opt (.grp (g + 3) dots)
def negativeYear (g : Nat) : Re := lit '-' ⬝ .grp g year4

/-- PATTERN_EXPONENTIAL_YEAR, under `(?i)`. -/
def exponentialYear (g : Nat) : Re :=
  (lit 'Y' ⬝ .grp g (.opt (lit '-') ⬝ .plus digit ⬝ lit 'E' ⬝ .plus digit)).ci

def significantDigits (g : Nat) : Re :=
  (.grp g year4 ∥ letterPrefixed (g + 1) ∥ exponentialYear (g + 2)) ⬝ lit 'S' ⬝ .grp (g + 3) (.plus digit)

def subYearGrouping (g : Nat) : Re :=
  .grp g (Re.rep digit 4) ⬝ lit '-' ⬝ .grp (g + 1)
    ((lit '1' ⬝ .cls false [('0', '2')]) ∥ (lit '2' ⬝ .cls false [('1', '9')]) ∥
     (lit '3' ⬝ .cls false [('0', '9')]) ∥ (lit '4' ⬝ .cls false [('0', '1')]))

def setRepresentations (g : Nat) : Re :=
  .grp g (lit '[' ∥ lit '{') ⬝
  .grp (g + 1) (.opt dots ⬝ (.plus (date (g + 2) ⬝ .opt (lit ',' ∥ dots)) ⬝ .opt dots)) ⬝
  .cls false [('}', '}'), (']', ']')]

def qOpt (g : Nat) : Re := .opt (qualAlt g '%' '~' '?')

def groupQualification (g : Nat) : Re :=
  .grp g (Re.rep digit 4) ⬝ qOpt (g + 1) ⬝ .opt (lit '-' ⬝ .grp (g + 2) (Re.rep digit 2) ⬝ qOpt (g + 3) ⬝
    .opt (lit '-' ⬝ .grp (g + 4) (Re.rep digit 2) ⬝ qOpt (g + 5)))

def individualQualification (g : Nat) : Re :=
  qOpt g ⬝ .grp (g + 1) (Re.rep digit 4) ⬝ .opt (lit '-' ⬝ qOpt (g + 2) ⬝ .grp (g + 3) (Re.rep digit 2) ⬝
    .opt (lit '-' ⬝ qOpt (g + 4) ⬝ .grp (g + 5) (Re.rep digit 2)))

def unspecifiedDigit (g : Nat) : Re :=
  .grp g (Re.rep digX 4) ⬝ .opt (lit '-' ⬝ .grp (g + 1) (Re.rep digX 2) ⬝
    .opt (lit '-' ⬝ .grp (g + 2) (Re.rep digX 2)))

def intervalHalf (g : Nat) : Re :=
  qOpt g ⬝ .grp (g + 1) yearX ⬝ .opt (lit '-' ⬝ qOpt (g + 2) ⬝ .grp (g + 3) (Re.rep digX 2) ⬝
    .opt (lit '-' ⬝ qOpt (g + 4) ⬝ .grp (g + 5) (Re.rep digX 2)))

def interval (g : Nat) : Re := intervalHalf g ⬝ lit '/' ⬝ intervalHalf (g + 6)

/-- `^r$` -/
def anch (r : Re) : Re := .bos ⬝ r ⬝ .eos

/-- re/common.go:15 -/
def Year : Re := anch (.grp 1 year4)
/-- re/common.go:17 — the anchors are doubled, as in the source. -/
def YMD : Re :=
  anch (.bos ⬝ yyyy 1 ⬝ .opt (lit '-' ⬝ mm 2 ⬝ .opt (lit '-' ⬝ dd 3)) ⬝ .eos)
/-- re/common.go:19 -/
def QualifiedIndividual : Re := anch (.opt (.grp 1 qual) ⬝ dateX 2)
/-- re/common.go:21 -/
def QualifiedGroup : Re := anch (dateX 1 ⬝ .opt (.grp 2 qual))

/-- re/level0.go:16 -/
def Date : Re := anch (date 1)
/-- re/level0.go:18 -/
def DateAndTime : Re := anch (dateAndTime 1)
/-- re/level0.go:20 -/
def TimeInterval : Re := anch (timeInterval 1)
/-- re/level0.go:28 -/
def Level0 : Re := anch (.grp 1 (date 2 ∥ dateAndTime 5 ∥ timeInterval 16))

/-- re/level1.go:19 -/
def LetterPrefixedCalendarYear : Re := anch (letterPrefixed 1)
/-- re/level1.go:21 — `^A|B$`: the start anchor belongs to the first
alternative only and the end anchor to the second only. -/
def Season : Re := (.bos ⬝ seasonNum 1) ∥ (seasonText 3 ⬝ .eos)
/-- re/level1.go:23 -/
def QualifiedDate : Re := anch (qualifiedDate 1)
/-- re/level1.go:25 -/
def UnspecifiedDigits : Re := anch (unspecifiedDigits 1)
/-- re/level1.go:27 -/
def IntervalStart : Re := anch (intervalStart 1)
/-- re/level1.go:29 -/
def IntervalEnd : Re := anch (intervalEnd 1)
/-- re/level1.go:31 -/
def NegativeYear : Re := anch (negativeYear 1)
/-- re/level1.go:43 — everything after the textual season is case-insensitive. -/
def Level1 : Re :=
  anch (.grp 1 (letterPrefixed 2 ∥ seasonNum 3 ∥ seasonText 5 ∥ (qualifiedDate 7).ci ∥
    (unspecifiedDigits 11).ci ∥ (intervalStart 14).ci ∥ (intervalEnd 18).ci ∥ (negativeYear 22).ci))

/-- re/level2.go:21 -/
def ExponentialYear : Re := anch (exponentialYear 1)
/-- re/level2.go:23 -/
def SignificantDigits : Re := anch (significantDigits 1)
/-- re/level2.go:25 -/
def SubYearGrouping : Re := anch (subYearGrouping 1)
/-- re/level2.go:27 -/
def SetRepresentations : Re := anch (setRepresentations 1)
/-- re/level2.go:29 -/
def GroupQualification : Re := anch (groupQualification 1)
/-- re/level2.go:31 -/
def IndividualQualification : Re := anch (individualQualification 1)
/-- re/level2.go:33 -/
def UnspecifiedDigit : Re := anch (unspecifiedDigit 1)
/-- re/level2.go:35 -/
def Interval : Re := anch (interval 1)
/-- re/level2.go:48 — no end anchor; all case-insensitive. -/
def Level2 : Re :=
  .bos ⬝ .grp 1 (exponentialYear 2 ∥ (significantDigits 3).ci ∥ (subYearGrouping 7).ci ∥
    (setRepresentations 9).ci ∥ (groupQualification 14).ci ∥ (individualQualification 20).ci ∥
    (unspecifiedDigit 26).ci ∥ (interval 29).ci)

/-! ### The trees are what the strings parse to -/

/-- The regex string `p` parses to the tree `r`, up to associativity. -/
def Compiles (p : Str) (r : Re) : Prop := (Re.compile p).map Re.flat = some r.flat

instance (p : Str) (r : Re) : Decidable (Compiles p r) := by unfold Compiles; infer_instance

open Pat in
theorem compiles_Year : Compiles (anchored YEAR) Year := by decide +kernel
open Pat in
theorem compiles_YMD : Compiles (anchored YMD_X) YMD := by decide +kernel
open Pat in
theorem compiles_QualifiedIndividual :
    Compiles (c! "^(" ++ QUALIFIER ++ c! ")?" ++ DATE_X ++ c! "$") QualifiedIndividual := by decide +kernel
open Pat in
theorem compiles_QualifiedGroup :
    Compiles (c! "^" ++ DATE_X ++ c! "(" ++ QUALIFIER ++ c! ")?$") QualifiedGroup := by decide +kernel
open Pat in
theorem compiles_Date : Compiles (anchored DATE) Date := by decide +kernel
open Pat in
theorem compiles_DateAndTime : Compiles (anchored DATE_AND_TIME) DateAndTime := by decide +kernel
open Pat in
theorem compiles_TimeInterval : Compiles (anchored TIME_INTERVAL) TimeInterval := by decide +kernel
open Pat in
theorem compiles_Level0 : Compiles LEVEL0 Level0 := by decide +kernel
open Pat in
theorem compiles_LetterPrefixedCalendarYear :
    Compiles (anchored LETTER_PREFIXED_CALENDAR_YEAR) LetterPrefixedCalendarYear := by decide +kernel
open Pat in
theorem compiles_Season : Compiles (anchored SEASON) Season := by decide +kernel
open Pat in
theorem compiles_QualifiedDate : Compiles (anchored QUALIFIED_DATE) QualifiedDate := by decide +kernel
open Pat in
theorem compiles_UnspecifiedDigits : Compiles (anchored UNSPECIFIED_DIGITS) UnspecifiedDigits := by decide +kernel
open Pat in
theorem compiles_IntervalStart : Compiles (anchored INTERVAL_START) IntervalStart := by decide +kernel
open Pat in
theorem compiles_IntervalEnd : Compiles (anchored INTERVAL_END) IntervalEnd := by decide +kernel
open Pat in
theorem compiles_NegativeYear : Compiles (anchored NEGATIVE_YEAR) NegativeYear := by decide +kernel
open Pat in
theorem compiles_Level1 : Compiles LEVEL1 Level1 := by decide +kernel
open Pat in
theorem compiles_ExponentialYear : Compiles (anchored EXPONENTIAL_YEAR) ExponentialYear := by decide +kernel
open Pat in
theorem compiles_SignificantDigits : Compiles (anchored SIGNIFICANT_DIGITS) SignificantDigits := by decide +kernel
open Pat in
theorem compiles_SubYearGrouping : Compiles (anchored SUB_YEAR_GROUPING) SubYearGrouping := by decide +kernel
open Pat in
theorem compiles_SetRepresentations : Compiles (anchored SET_REPRESENTATIONS) SetRepresentations := by decide +kernel
open Pat in
theorem compiles_GroupQualification : Compiles (anchored GROUP_QUALIFICATION) GroupQualification := by decide +kernel
open Pat in
theorem compiles_IndividualQualification :
    Compiles (anchored INDIVIDUAL_QUALIFICATION) IndividualQualification := by decide +kernel
open Pat in
theorem compiles_UnspecifiedDigit : Compiles (anchored UNSPECIFIED_DIGIT) UnspecifiedDigit := by decide +kernel
open Pat in
theorem compiles_Interval : Compiles (anchored INTERVAL) Interval := by decide +kernel
open Pat in
theorem compiles_Level2 : Compiles LEVEL2 Level2 := by decide +kernel

/-! Group counts: the slice lengths the parsers compare with are groups + 1. -/
example : YMD.groups + 1 = 4 := by decide
example : QualifiedIndividual.groups + 1 = 3 ∧ QualifiedGroup.groups + 1 = 3 := by decide
example : DateAndTime.groups + 1 = 12 := by decide
example : LetterPrefixedCalendarYear.groups + 1 = 2 ∧ ExponentialYear.groups + 1 = 2 := by decide
example : Season.groups + 1 = 5 ∧ SignificantDigits.groups + 1 = 5 := by decide
example : SubYearGrouping.groups + 1 = 3 ∧ SetRepresentations.groups + 1 = 6 := by decide

end Rx
end EDTF
