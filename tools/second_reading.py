"""A second reading of the Go sources, written from /repo and not from the Lean model, to compare
the two (tools/crosscheck.py).  No code of /repo is run.  Errors that package time or strconv
words are '*' here, and years with an exponent of more than 64 bits are skipped."""
import re, json
class Err(Exception): pass
class Panic(Exception): pass
def rx(p, pre='^', post='$'):
    # leading/trailing anchors as in Go without (?m); \d, \s ASCII
    p = pre + p + post
    p = p.replace(r'\d','[0-9]').replace(r'\s','[\\t\\n\\f\\r ]').replace(r'\/','/')
    p = re.sub(r'\$', r'\\Z', p)
    return re.compile(p)
Y=r'(\-?\d{4})'; Q='[\\?~%]'
YX=r'\-?[0-9X]{4}'; MX='(?:[0X][1-9X]|[1X][0-2X])'; DX='(?:[012X][0-9X]|[3X][01X])'
YYYY='('+Q+'?'+YX+'|'+YX+Q+'?)'; MM='('+Q+'?'+MX+'|'+MX+Q+'?)'; DD='('+Q+'?'+DX+'|'+DX+Q+'?)'
YMDX='^'+YYYY+r'(?:\-'+MM+r'(?:\-'+DD+')?'+')?$'
DATEX='('+YX+'|(?:'+MX+')|(?:'+DX+'))'
DATE=r'(\-?\d{4})(?:-([0][1-9]|1[0-2])(?:-(0[1-9]|[12][0-9]|3[01]))?)?'
DT=DATE+r'T(\d{2}):(\d{2}):(\d{2})(Z|(\+|-)(\d{2})(\:(\d{2}))?)?'
TI=DATE+'/'+DATE
LP=r'Y(\-?\d+)'
SEASON=Y+r'\-(0[1-9]|1[0-2]|2[1-4])|(?i:(spring|summer|fall|winter)\s*,\s*(\d{4})$)'
QD=DATE+r'(\?|~|%)'
UD='(?:([0-9X]{4})(?:-([0X][1-9X]|[1X][0-2X])(?:-([012X][1-9X]|[3X][01X]))?)?)'
IS=r'(\.\.)?\/'+DATE; IE=DATE+r'\/(\.\.)?'; NY=r'\-'+Y
EY=r'(?i:Y(\-?\d+E\d+))'
# (?i) inside a group lasts to the end of the group, here the rest of the alternative and those after it
SD='(?:'+Y+'|'+LP+'|'+EY+r')S(\d+)'
SY=r'(\d{4})\-(1[0-2]|2[1-9]|3[0-9]|4[0-1])'
SET=r'(\[|\{)((?:\.\.)?(?:(?:'+DATE+r'(?:,|\.\.)?)+(?:\.\.)?))[\}\]]'
GQ=r'(?:(\d{4})(%|~|\?)?(?:-(\d{2})(%|~|\?)?(?:-(\d{2})(%|~|\?)?)?)?)'
IQ=r'(?:(%|~|\?)?(\d{4})(?:-(%|~|\?)?(\d{2})(?:-(%|~|\?)?(\d{2}))?)?)'
UDG=r'([0-9X]{4})(?:-([0-9X]{2})(?:-([0-9X]{2}))?)?'
IV=r'(%|~|\?)?(\-?[0-9X]{4})(?:-(%|~|\?)?([0-9X]{2})(?:-(%|~|\?)?([0-9X]{2}))?)?\/(%|~|\?)?(\-?[0-9X]{4})(?:-(%|~|\?)?([0-9X]{2})(?:-(%|~|\?)?([0-9X]{2}))?)?'
R=dict(Date=rx(DATE),DT=rx(DT),TI=rx(TI),LP=rx(LP),QD=rx(QD),UD=rx(UD),IS=rx(IS),IE=rx(IE),NY=rx(NY),
 EY=rx(EY),SD=rx(SD),SY=rx(SY),SET=rx(SET),GQ=rx(GQ),IQ=rx(IQ),UDG=rx(UDG),IV=rx(IV),
 YMD=rx(YMDX),QI=rx('('+Q+')?'+DATEX),QG=rx(DATEX+'('+Q+')?'))
R['Season']=rx(SEASON,'^','')
R['L0']=rx('('+'|'.join([DATE,DT,TI])+')')
# the flag set by (?i) in the season pattern holds for the later alternatives of the group
SEASON1=Y+r'\-(0[1-9]|1[0-2]|2[1-4])|(?i:(spring|summer|fall|winter)\s*,\s*(\d{4})|'
R['L1']=rx('('+LP+'|'+SEASON1+'|'.join([QD,UD,IS,IE,NY])+'))')
R['L2']=rx('((?i:'+'|'.join([r'Y(\-?\d+E\d+)', '(?:'+Y+'|'+LP+r'|Y(\-?\d+E\d+))S(\d+)',SY,SET,GQ,IQ,UDG,IV])+'))','^','')
def sub(r,s):
    m=R[r].search(s)
    return None if m is None else [m.group(0)]+[g or '' for g in m.groups()]
def test(r,s): return R[r].search(s) is not None
Invalid=lambda l,s: Err("Invalid EDTF string '%s' (%s)"%(s,l))
Unsupported=lambda l,s: Err("Unsupported EDTF string '%s' (%s)"%(s,l))
NotImpl=lambda l,s: Err("Not implemented '%s' (%s)"%(s,l))
def atoi(s, bits=64):
    if not re.fullmatch('[+-]?[0-9]+',s): raise Err(None)
    v=int(s)
    if not -2**(bits-1)<=v<2**(bits-1): raise Err(None)
    return v
def days(y,m,d):  # proleptic Gregorian, days since 1970-01-01
    y2=y-(m<=2); era=y2//400; yoe=y2-era*400
    doy=(153*(m+(-3 if m>2 else 9))+2)//5+d-1
    return era*146097+yoe*365+yoe//4-yoe//100+doy-719468
def civil(z):
    z+=719468; era=z//146097; doe=z-era*146097
    yoe=(doe-doe//1460+doe//36524-doe//146096)//365
    y=yoe+era*400; doy=doe-(365*yoe+yoe//4-yoe//100); mp=(5*doy+2)//153
    d=doy-(153*mp+2)//5+1; m=mp+(3 if mp<10 else -9)
    return y+(m<=2),m,d
def leap(y): return y%4==0 and (y%100!=0 or y%400==0)
def dim(y,m): return [31,29 if leap(y) else 28,31,30,31,30,31,31,30,31,30,31][m-1]
def addyears(t,n):  # time.AddDate(n,0,0): normalises
    y,m,d=civil(t//86400); s=t%86400
    return (days(y+n,m,1)+d-1)*86400+s
def parse_date(y,m,d,h=0,mi=0,s=0):
    if not (1<=m<=12) : raise Err(None)
    if h>23 or mi>59 or s>59: raise Err(None)
    if d<1 or d>dim(y,m): raise Err(None)
    return days(y,m,d)*86400+h*3600+mi*60+s
def flip(y): return y-2*y
def daysInMonth(y,m):
    if y<0: y=y-2*y
    nm=m+1
    if m>=12: nm=1
    if y>9999 or y<0: raise Err(None)
    if nm<0 or nm>99: raise Err(None)
    t=parse_date(y,nm,1)-86400
    return civil(t//86400)[2]
def daysInMonthStr(s):
    p=s.split('-')
    if len(p)==3: a,b='-'+p[1],p[2]
    elif len(p)==2: a,b=p
    else: raise Err('Invalid YYYYMM string')
    return daysInMonth(atoi(a),atoi(b))
def ymdFromStrings(y,m,d):
    if y=='': raise Err('Missing year')
    if m=='' and d!='': raise Err('Missing month')
    yy=atoi(y); bce=False
    if yy<0: bce=True; yy=flip(yy)
    mm=atoi(m) if m!='' else 0
    dd=atoi(d) if d!='' else 0
    if yy>9999: raise Unsupported('year',str(yy))
    if mm==0 and dd!=0: raise Err('Missing month')
    if mm==0: mm=1
    elif mm>12: raise Err('Invalid month')
    n=daysInMonth(yy,mm)
    if dd==0: dd=n
    elif dd>n: raise Err('Invalid days for month')
    if bce: yy=flip(yy)
    return (yy,mm,dd)
def timeToBCE(t): return addyears(t,-2*civil(t//86400)[0])
def timeWithYMD(ymd,hms):
    y,m,d=ymd; bce=False
    if y<0: bce=True; y=flip(y)
    h,mi,s=map(int,hms.split(':'))
    if y>9999: raise Err(None)
    t=parse_date(y,m,d,h,mi,s)
    return timeToBCE(t) if bce else t
def comp(s):
    m=sub('QI',s)
    if m: return m[2],(('I',m[1]) if m[1] else None)
    m=sub('QG',s)
    if m: return m[1],(('G',m[2]) if m[2] else None)
    raise Invalid('date',s)
NONE,ALL,ANY,DAY,WEEK,MONTH,YEAR,DECADE,CENTURY,MILL=0,2,4,8,16,32,64,128,256,512
def stringRange(e):
    m=sub('YMD',e)
    if not m: raise Invalid('date',e)
    y,mo,d=m[1:4]; yq=mq=dq=None
    if y: y,yq=comp(y)
    if mo: mo,mq=comp(mo)
    if d: d,dq=comp(d)
    u=a=0
    for q,g,i in ((dq,YEAR|MONTH|DAY,DAY),(mq,YEAR|MONTH,MONTH),(yq,YEAR,YEAR)):
        if q:
            f=g if q[0]=='G' else i
            if q[1] in '?%': u|=f
            if q[1] in '~%': a|=f
    sy=ey=y; sm=em=mo; sd=ed=d
    if not y.endswith('X'): p=YEAR
    else:
        if y[0]=='X': raise NotImpl('date',e)
        k=atoi(y[0],32)*1000; p=MILL; lo=hi=k
        for i,(sc,pr) in enumerate(((100,CENTURY),(10,DECADE),(1,YEAR))):
            c=y[i+1]
            if c!='X': v=atoi(c,32)*sc; lo+=v; hi+=v; p=pr
            else: hi+=9*sc
        sy,ey=str(lo),str(hi)
    if mo.endswith('X'):
        if mo[0]=='X': sm,em='01','12'
        else: sm,em='10','12'; p=MONTH
    if d.endswith('X'):
        if d[0]=='X': sd,ed='01',''
        elif d[0]=='1': sd,ed='10','19'
        elif d[0]=='2': sd,ed='20','29'
        elif d[0]=='3': sd,ed='30',''
        else: raise Invalid('date',e)
    if d=='XX' and mo=='XX': p=YEAR
    elif d=='XX': p=MONTH
    sm=sm or '01'; sd=sd or '01'; em=em or '12'
    if ed=='': ed=str(daysInMonthStr(ey+'-'+em))
    return (sy,sm,sd),(ey,em,ed),p,u,a
def iso(t):
    y,m,d=civil(t//86400); s=t%86400
    return ('-' if y<0 else '')+'%04d'%abs(y)+'-%02d-%02dT%02d:%02d:%02dZ'%(m,d,s//3600,s//60%60,s%60)
def mk(t=None,ymd=None,u=0,a=0,p=0): return dict(t=t,ymd=ymd,u=u,a=a,p=p,open=False,unk=False,inc=0)
def spanYMD(e):
    s,en,p,u,a=stringRange(e)
    sy=ymdFromStrings(*s); ey=ymdFromStrings(*en)
    L,U='00:00:00','23:59:59'
    if s==en:
        st=timeWithYMD(sy,L); et=timeWithYMD(ey,U); ts=(st,st,et,et)
    else: ts=(timeWithYMD(sy,L),timeWithYMD(sy,U),timeWithYMD(ey,L),timeWithYMD(ey,U))
    return [dict(edtf=e,lower=mk(ts[0],sy,u,a,p),upper=mk(ts[1],sy,u,a,p)),dict(edtf=e,lower=mk(ts[2],ey,u,a,p),upper=mk(ts[3],ey,u,a,p))]
def empty(f):
    r=dict(edtf='',lower=mk(),upper=mk()); r['lower'][f]=r['upper'][f]=True; return r
def half(e):
    if e=='': return [dict(empty('unk'),edtf=e),dict(empty('unk'),edtf=e)]
    if e=='..': return [dict(empty('open'),edtf=e),dict(empty('open'),edtf=e)]
    return spanYMD(e)
def span(e):
    p=e.split('/')
    if len(p)==1: return spanYMD(e)
    if len(p)!=2: raise Invalid('date span',e)
    l=half(p[0]); r=half(p[1])
    l[0]['upper']=l[1]['upper']; r[1]['lower']=r[0]['lower']; l[1]=r[1]
    return l
def date(sp,s,l,f): return dict(start=sp[0],end=sp[1],edtf=s,level=l,feature=f)
def whole(r,l,f):
    def g(s):
        if not test(r,s): raise Invalid(f,s)
        return date(span(s),s,l,f)
    return g
def dateAndTime(s):
    m=sub('DT',s)
    if not m: raise Invalid('Date and Time',s)
    bce=s.startswith('-'); v=s[1:] if bce else s
    g=re.fullmatch(r'(\d{4})-(\d\d)-(\d\d)T(\d\d):(\d\d):(\d\d)(?:Z|([+-])(\d\d)(?::(\d\d))?)?',v)
    if not g: raise Err(None)
    x=list(map(int,g.groups()[:6]))
    off=0
    if g.group(7):
        h=int(g.group(8)); mi=int(g.group(9) or 0)
        if h>24 or mi>60: raise Err(None)
        off=(h*60+mi)*60*(1 if g.group(7)=='+' else -1)
    t=parse_date(*x)-off
    if bce: t=timeToBCE(t)
    r=dict(edtf='',lower=mk(t),upper=mk(t))
    return date([r,r],s,0,'Date and Time')
def letter(s):
    f='Letter-prefixed calendar year'; m=sub('LP',s)
    if not m: raise Invalid(f,s)
    if len(m[1])>(5 if m[1][0]=='-' else 4): raise Unsupported(f,s)
    return date(span(m[1]),s,1,f)
def pad(n,w): return ('%0'+str(w)+'d')%n
def season(s):
    m=sub('Season',s)
    if not m: raise Invalid('Seasons',s)
    if m[1]=='':
        y=atoi(m[4]); k=m[3].upper()
        t=dict(WINTER=(y,12,y+1,2),SPRING=(y,3,y,5),SUMMER=(y,6,y,8),FALL=(y,9,y,11))
        if k not in t: raise Invalid('Seasons',s)
        a,b,c,d=t[k]
    else:
        y=atoi(m[1]); k=atoi(m[2])
        a,b,c,d={21:(y,3,y,5),22:(y,6,y,8),23:(y,9,y,11),24:(y,12,y+1,2)}.get(k,(y,k,y,k))
    n=daysInMonth(c,d)
    return date(span('%s-%s-01/%s-%s-%s'%(pad(a,4),pad(b,2),pad(c,4),pad(d,2),pad(n,2))),s,1,'Seasons')
def extended(s):
    if test('IS',s): return whole('IS',1,'Extended Interval (Start)')(s)
    if test('IE',s): return whole('IE',1,'Extended Interval (End)')(s)
    raise Invalid('Extended Interval',s)
def expo(n):
    a,b=re.split('[eE]',n)
    e=int(b)
    if e>=2**63: raise Err(None)
    if e>10**6: return None   # not compared
    # big.ParseFloat, precision 64, nearest even
    neg=a.startswith('-'); v=int(a.lstrip('-'))*10**e
    # prec 0 -> 64 bits; value = mantissa rounded to 64 bits times rounded power: only approximated here
    if v.bit_length()>64: return None
    v=-v if neg else v
    v64=(abs(v))%2**64
    if v64>=2**63: v64-=2**64
    if neg: v64=-v64 if v64!=-2**63 else v64
    if v64>9999 or v64<-9999: raise Unsupported('exponential notation',n)
    return v64
class Skip(Exception): pass
def exponential(s):
    m=sub('EY',s)
    if not m: raise Invalid('Exponential year',s)
    y=expo(m[1])
    if y is None: raise Skip
    return date(span(str(y)),s,2,'Exponential year')
def signif(s):
    f='Significant digits'; m=sub('SD',s)
    if not m: raise Invalid(f,s)
    if m[1]: y=atoi(m[1])
    elif m[2]:
        if len(m[2])>4: raise Unsupported(f,s)
        y=atoi(m[2])
    else:
        y=expo(m[3])
        if y is None: raise Skip
    if y>9999: raise Unsupported(f,s)
    try: n=atoi(m[4])
    except Err: raise Invalid(f,s)
    if len(str(n))>len(str(y)): raise Invalid(f,s)
    t=str(y)
    if n>len(t): raise Panic
    a=t[:len(t)-n]+'0'*n; b=t[:len(t)-n]+'9'*n
    return date(span(b+'/'+a if a[:1]=='-' and b[:1]=='-' else a+'/'+b),s,2,f)
def sub_year(s):
    f='Sub-year groupings'; m=sub('SY',s)
    if not m: raise Invalid(f,s)
    sp=('03','05','31',0); su=('06','08','31',0); au=('09','11','30',0); wi=('12','02','',1)
    t={'21':sp,'25':sp,'22':su,'26':su,'23':au,'27':au,'24':wi,'28':wi,'29':au,'30':wi,'31':sp,'32':su,'33':('01','03','31',0),'34':('04','06','30',0),
       '35':('07','09','30',0),'36':('10','12','31',0),'37':('01','04','30',0),'38':('05','08','31',0),'39':('09','12','31',0),'40':('01','06','30',0),'41':('07','12','31',0)}
    if m[2] not in t: raise Invalid(f,s)
    a,b,c,n=t[m[2]]; ey=str(atoi(m[1])+1) if n else m[1]
    return date(span('%s-%s-01/%s-%s%s'%(m[1],a,ey,b,'-'+c if c else '')),s,2,f)
def sets(s):
    f='Set representation'; m=sub('SET',s)
    if not m: raise Invalid(f,s)
    inc={'[':ANY,'{':ALL}[m[1]]; po=[]; so=eo=False
    for d in m[2].split(','):
        p=d.split('..')
        if len(p)==1: po.append(d)
        elif len(p)==2:
            if p[0] and p[1]: po+=p
            elif p[0]=='': po.append(p[1]); so=True
            else: po.append(p[0]); eo=True
        else: raise Invalid(f,s)
    po.sort(); a,b=po[0],po[-1]
    t=a
    if so: t='../'+a
    elif eo: t=a+'/..'
    elif a!=b: t=a+'/'+b
    post=(so or eo) and len(po)>1
    if post: t=a+'/'+b
    sp=span(t)
    if post:
        o=empty('open')
        if so: sp[1]['lower']=sp[0]['lower']; sp[0]=o
        if eo: sp[0]['upper']=sp[1]['upper']; sp[1]=o
    if not so: sp[0]['lower']['inc']=inc; sp[0]['upper']['inc']=inc
    if not eo: sp[1]['lower']['inc']=inc; sp[1]['upper']['inc']=inc
    return date(sp,s,2,f)
def parse(s):
    if test('L0',s):
        if test('Date',s): return whole('Date',0,'Date')(s)
        if test('DT',s): return dateAndTime(s)
        if test('TI',s): return whole('TI',0,'Time Interval')(s)
        raise Invalid('Invalid Level 0 string',s)
    if test('L1',s):
        if test('LP',s): return letter(s)
        if test('Season',s): return season(s)
        if test('QD',s): return whole('QD',1,'Qualification of a date (complete)')(s)
        if test('UD',s): return whole('UD',1,'Unspecified digit(s) from the right')(s)
        if test('NY',s): return whole('NY',1,'Negative calendar year')(s)
        return extended(s)
    if test('L2',s):
        if test('EY',s): return exponential(s)
        if test('SD',s): return signif(s)
        if test('SY',s): return sub_year(s)
        if test('SET',s): return sets(s)
        if test('GQ',s): return whole('GQ',2,'Qualification (Group)')(s)
        if test('IQ',s): return whole('IQ',2,'Qualification (Individual)')(s)
        if test('UDG',s): return whole('UDG',2,'Unspecified Digit')(s)
        if test('IV',s): return whole('IV',2,'Interval')(s)
        raise Invalid('Invalid or unsupported Level 2 string',s)
    if s=='..': return date([empty('open'),empty('open')],s,-1,'Open')
    if s=='': return date([empty('unk'),empty('unk')],s,-1,'Unknown')
    raise Err("Unrecognized EDTF string '%s' (Invalid or unsupported EDTF string)"%s)
def jd(d):
    o={}
    if d['t'] is not None: o['datetime']=iso(d['t']); o['timestamp']=d['t']
    o['ymd']=None if d['ymd'] is None else dict(zip(('year','month','day'),d['ymd']))
    for k,n in (('u','uncertain'),('a','approximate'),('p','precision')):
        if d[k]: o[n]=d[k]
    if d['open']: o['open']=True
    if d['unk']: o['unknown']=True
    if d['inc']: o['inclusivity']=d['inc']
    return o
def jr(r): return dict(edtf=r['edtf'],lower=jd(r['lower']),upper=jd(r['upper']))
def run(s):
    try: d=parse(s)
    except Panic: return 'panic'
    except Skip: return 'skip'
    except Err as e: return 'error '+(e.args[0] if e.args[0] is not None else '*')
    o=dict(start=jr(d['start']),end=jr(d['end']),edtf=d['edtf'],level=d['level'],feature=d['feature'])
    return json.dumps(o,separators=(',',':'),ensure_ascii=False).replace('<','\\u003c').replace('>','\\u003e').replace('&','\\u0026')
