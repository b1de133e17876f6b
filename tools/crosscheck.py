"""Compares parseStringM of the Lean model with tools/second_reading.py on generated texts.
Usage: python3 tools/crosscheck.py [SEED] (after lake build; writes to /tmp/crosscheck)."""
import os, random, subprocess, sys
sys.dont_write_bytecode = True
import warnings
warnings.simplefilter("ignore")
import second_reading
HERE = os.path.dirname(os.path.abspath(__file__))
SEED = int(sys.argv[1]) if len(sys.argv) > 1 else 7
LEAN = r"""import Verif.Message
import Verif.Cmd
open EDTF
def out (s : Str) : String := match parseStringM s with
  | .ok d => String.ofList d.marshal
  | .fault f => "error " ++ String.ofList f.text
  | .panic => "panic"
def main : IO Unit := do
  let t ← IO.FS.readFile "/tmp/crosscheck/in.txt"
  for s in t.splitOn "\u0001" do
    IO.println ((out s.toList).replace "\n" "\\n")
"""
def damaged():
    """Texts of the README and the tests, joined and damaged."""
    random.seed(SEED)
    seeds='''1985 1985-04 1985-04-12 -0200 -0200-02-29 0000 0004-02-29 1985-04-12T23:20:30 1985-04-12T23:20:30Z 1985-04-12T23:20:30-04 1985-04-12T23:20:30+04:30 -0001-01-01T00:00:00+01 1964/2008 2004-06/2006-08 2004-02-01/2005-02-08 2004-02-01/2005 Y1700 Y-1700 Y-17 Y170000002 2001-21 2001-24 -0500-24 Spring,2002 winter , 2002 Fall,1999 1984? 2004-06~ 2004-06-11% 201X 20XX 2004-XX 1985-04-XX 1985-XX-XX 1985-04-1X 1985-0X-XX ../1985 /1985 1985/.. 1985/ 1985-04-12/.. 1985-04-12/ ../1985-04-12 --1985 Y-17E2 Y17E2 Y1E3 Y10E7 y10e2 1950S2 1900S3 Y1710S3 Y3388E0S2 1950S5 -1950S2 2001-34 2001-28 2001-41 0500-32 9999-28 [1667,1668,1670..1672] [..1760-12-03] [1760-12..] [1760-01,1760-02,1760-12..] {1960,1961-12} {..1984} {-0100,-0200..} [..1984,1990..] [1985} 2004-06-11? 2004?-06-11 2004-06~-11 ?2004-06-~11 2004-~06 %2004-06 156X-12-25 15XX-12-25 XXXX-12-XX 1XXX-XX 1XXX-12 1984-1X 2004-06-~01/2004-06-~20 2004-06-XX/2004-07-03 ~1984/%1985-02 -200X/2000 1999-02-29 1900-02-29 2000-02-29 1985-13 1985-00 1985-04-31 .. open unknown uuuu 1985-04-0X 1985-3X 200X-02-29 2021-02-2X'''.split(' ')
    seeds=[x.replace('winter','winter , 2002') for x in seeds if x not in (',','2002')]
    al='0123456789XTZ:+-/.,?~%[]{}SEeYysxu \n'
    out=set(seeds)
    while len(out)<24000:
        s=random.choice(seeds)
        r=random.random()
        if r<0.15: s=s+random.choice('/,-')+random.choice(seeds)
        elif r<0.25:
            t=random.choice(seeds); s=s[:random.randrange(len(s)+1)]+t[random.randrange(len(t)+1):]
        for _ in range(random.choice([0,1,1,1,2,2,3])):
            i=random.randrange(len(s)+1); k=random.random()
            if k<0.6 and i<len(s):
                c=s[i]
                s=s[:i]+(random.choice('0123456789X') if c.isdigit() else random.choice(al))+s[i+1:]
            elif k<0.8: s=s[:i]+random.choice(al)+s[i:]
            else: s=s[:i]+s[i+1:]
        out.add(s)
    return out

def composed():
    """Texts built like dates, intervals, sets and so on."""
    random.seed(SEED); R = random.random; C = random.choice
    def dig(n,x=0): return ''.join('X' if R()<x else C('0123456789') for _ in range(n))
    def year(x=0): return C(['','','','-'])+C([dig(4,x),C(['0000','0001','9999','0999','1000','2000','1900','2004','1985'])])
    def mon(x=0):
        s=C(['01','02','02','12','10','13','00','21','24','28','41','06'])
        return ''.join('X' if R()<x else c for c in s)
    def day(x=0):
        s=C(['01','28','29','30','31','00','15','20'])
        return ''.join('X' if R()<x else c for c in s)
    q=lambda p: C('?~%') if R()<p else ''
    def date(x=0,p=0):
        k=C([1,2,3,3]); l=R()<.5
        f=lambda t: (q(p)+t) if l else (t+q(p))
        return '-'.join([f(year(x)),f(mon(x)),f(day(x))][:k])
    def dt(): return year()+'-'+mon()+'-'+day()+'T'+C(['23:59:59','00:00:00','24:00:00',dig(2)+':'+dig(2)+':'+dig(2),'12:60:00','23:59:60'])+C(['','Z','+04','-11:30','+24','-24:60','+25','+00:61','-'+dig(2),'+'+dig(2)+':'+dig(2)])
    def iv(x,p): return C(['','..',date(x,p),date(x,p),date(x,p)])+'/'+C(['','..',date(x,p),date(x,p)])
    def st():
        n=C([1,1,2,2,3]); return C('[{')+C(['','','..'])+C([',',',','..']).join(date() for _ in range(n))+C(['','','..',','])+C(']}')
    def sea(): return C(['spring','SUMMER','Fall','winter','ſpring','ſUMMER','autumn'])+C([',',' , ',',\t',' ,\n'])+C([dig(4),'9999','0000'])
    def ey(): return C('Yy')+C(['','-'])+dig(C([1,2,3,4,5]))+C('Ee')+C(['0','1','2','3','00','02'])
    def sd(): return C([year(),'Y'+C(['','-'])+dig(C([1,2,3,4,5])),ey()])+C('SSSs')+C(['0','1','2','3','4','5','02','00','10'])
    gens=[lambda:date(),lambda:date(.3),lambda:date(0,.4),lambda:date(.3,.3),dt,lambda:iv(0,0),lambda:iv(.2,.2),st,sea,ey,sd,lambda:'Y'+C(['','-'])+dig(C([1,2,3,4,4,4,5])),lambda:'-'+year(),lambda: dig(4)+'-'+dig(2)]
    out=set()
    while len(out)<40000:
        s=C(gens)()
        if R()<.05: s+=C(['\n',' ','x','?','/'])
        out.add(s)
    return out

os.makedirs("/tmp/crosscheck", exist_ok=True)
texts = sorted(damaged() | composed())
open("/tmp/crosscheck/in.txt", "w").write("\x01".join(texts))
open("/tmp/crosscheck/run.lean", "w").write(LEAN)
lean = subprocess.check_output(["lake", "env", "lean", "--run", "/tmp/crosscheck/run.lean"], cwd=HERE + "/../lean").decode().rstrip("\n").split("\n")
assert len(lean) == len(texts)
count = {}
for s, l in zip(texts, lean):
    p = second_reading.run(s).replace("\n", "\\n")
    same = p == l or p == "error *" and l.startswith("error ")
    kind = "skipped" if p == "skip" else "DIFFERENT" if not same else "accepted" if p[0] == "{" else p.split(" ")[0]
    count[kind] = count.get(kind, 0) + 1
    if kind == "DIFFERENT": print(repr(s), p, l, sep="\n  ")
print(count)
