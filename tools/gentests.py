#!/usr/bin/env python3
"""Turn the tables in /repo/{level0,level1,level2,parser}/tests.go into Lean
examples (lean/Verif/Tests.lean).  These are tests of the model, not proofs."""
import re
FUN = {
 ('level0','DATE'):'L0.parseDate', ('level0','DATE_AND_TIME'):'L0.parseDateAndTime',
 ('level0','TIME_INTERVAL'):'L0.parseTimeInterval',
 ('level1','LETTER_PREFIXED_CALENDAR_YEAR'):'L1.parseLetterPrefixedCalendarYear',
 ('level1','SEASON'):'L1.parseSeason', ('level1','QUALIFIED_DATE'):'L1.parseQualifiedDate',
 ('level1','UNSPECIFIED_DIGITS'):'L1.parseUnspecifiedDigits',
 ('level1','EXTENDED_INTERVAL_START'):'L1.parseExtendedIntervalStart',
 ('level1','EXTENDED_INTERVAL_END'):'L1.parseExtendedIntervalEnd',
 ('level1','NEGATIVE_CALENDAR_YEAR'):'L1.parseNegativeCalendarYear',
 ('level2','EXPONENTIAL_YEAR'):'L2.parseExponentialYear',
 ('level2','SIGNIFICANT_DIGITS'):'L2.parseSignificantDigits',
 ('level2','SUB_YEAR_GROUPINGS'):'L2.parseSubYearGroupings',
 ('level2','SET_REPRESENTATIONS'):'L2.parseSetRepresentations',
 ('level2','GROUP_QUALIFICATION'):'L2.parseGroupQualification',
 ('level2','INDIVIDUAL_QUALIFICATION'):'L2.parseIndividualQualification',
 ('level2','UNSPECIFIED_DIGIT'):'L2.parseUnspecifiedDigit',
 ('level2','INTERVAL'):'L2.parseInterval',
}
out=[]
def strip(src):
    src=re.sub(r'/\*.*?\*/','',src,flags=re.S)
    # remove // comments outside strings
    return '\n'.join(re.sub(r'^((?:[^"]|"[^"]*")*?)//.*$',r'\1',l) for l in src.split('\n'))
POS=['StartLower','StartUpper','EndLower','EndUpper']
def opts(body):
    kv=dict(re.findall(r'(\w+):\s*("[^"]*"|[\w.\-| ]+),',body))
    res=[]
    for p in POS:
        t=kv.pop(p+'TimeRFC3339','""')
        u=kv.pop(p+'TimeUnix','0')
        o=kv.pop(p+'IsOpen','false'); k=kv.pop(p+'IsUnknown','false')
        def pr(n):
            v=kv.pop(p+n,'edtf.NONE').strip()
            return 'Prec.'+v.replace('edtf.','')
        pc,un,ap,inc=pr('Precision'),pr('Uncertain'),pr('Approximate'),pr('Inclusivity')
        res.append(f'⟨c! {t}, {u}, {o}, {k}, {pc}, {un}, {ap}, {inc}⟩')
    assert not kv,kv
    return res
def entries(src):
    for m in re.finditer(r'^\s*(?:"([^"]*)":\s*)(?:nil,|tests\.NewTestResult\(tests\.TestResultOptions\{(.*?)\}\),)',src,flags=re.S|re.M):
        yield m.group(1), m.group(2) or ''
n=0
for lev in ['level0','level1','level2']:
    src=strip(open(f'/repo/{lev}/tests.go').read())
    parts=re.split(r'^\t([A-Z_]+): map\[string\]\*tests\.TestResult\{',src,flags=re.M)
    for feat,body in zip(parts[1::2],parts[2::2]):
        f=FUN[(lev,feat)]
        out.append(f'/-! {lev}/tests.go: {feat} -/')
        for s,b in entries(body):
            out.append(f'example : checks ({f} (c! "{s}"))\n    '+'\n    '.join(opts(b))+' = true := by decide +kernel')
            n+=1
src=strip(open('/repo/parser/tests.go').read())
out.append('/-! parser/tests.go -/')
for s,b in entries(src):
    out.append(f'example : checks (parseString (c! "{s}"))\n    '+'\n    '.join(opts(b))+' = true := by decide +kernel')
    n+=1
print('-- generated:',n)
hdr='''/-
The repository's own test tables run on the model.  Generated by
tools/gentests.py.  These are tests on literals (they validate the model);
no property rests on them.
-/
import Verif.Cmp
namespace EDTF.Tests

/-- tests/tests.go: the expectations for one boundary. -/
structure Want where
  rfc : Str
  unix : Int
  isOpen : Bool
  unknown : Bool
  precision : Prec
  uncertain : Prec
  approximate : Prec
  inclusivity : Prec

def flagOk (got want : Prec) : Bool := want == 0 || Prec.hasFlag got want

/-- tests/tests.go: the checks on one boundary. -/
def check1 (d : Option Date) (w : Want) : Bool :=
  match d with
  | none => false
  | some d =>
    (w.rfc.isEmpty || d.timestamp.map formatRFC3339 == some w.rfc) &&
    (w.unix == 0 || d.timestamp == some w.unix) &&
    d.isOpen == w.isOpen && d.unknown == w.unknown && flagOk d.precision w.precision &&
    flagOk d.uncertain w.uncertain && flagOk d.approximate w.approximate &&
    flagOk d.inclusivity w.inclusivity

/-- Errors of kind unsupported or not-implemented are skipped by the Go tests. -/
def checks (r : Res EDTFDate) (sl su el eu : Want) : Bool :=
  match r with
  | .ok ⟨some s, some e, _, _, _⟩ =>
    check1 s.lower sl && check1 s.upper su && check1 e.lower el && check1 e.upper eu
  | .err e => isUnsupported e || isNotImplemented e
  | _ => false

'''
extra=open('/verif/tools/tests_extra.txt').read()
open('/verif/lean/Verif/Tests.lean','w').write(hdr+'\n'.join(out)+'\n\n'+extra+'\nend EDTF.Tests\n')
