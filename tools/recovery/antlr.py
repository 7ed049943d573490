import re,sys
sys.setrecursionlimit(100000)
src='/repo/src/main/java/com/github/sidhant92/boolparser/parser/antlr/BooleanExpressionParser.java'
text=open(src,encoding='utf-8').read()
start=text.index('_serializedATN =\n')
body=text[start:text.index(';\n\tpublic static final ATN',start)]
lits=re.findall(r'"((?:[^"\\]|\\.)*)"',body)
esc={'b':8,'t':9,'n':10,'f':12,'r':13,'"':34,"'":39,'\\':92}
def codes(s):
    i,r=0,[]
    while i<len(s):
        if s[i]!='\\': r.append(ord(s[i]));i+=1
        elif s[i+1]=='u': r.append(int(s[i+2:i+6],16));i+=6
        else: r.append(esc[s[i+1]]);i+=2
    return r
raw=[c for l in lits for c in codes(l)]
d=[];i=0
while i<len(raw):
    v=raw[i];i+=1
    if v&0x8000==0: d.append(v)
    else:
        w=raw[i];i+=1
        d.append(-1 if v==0xffff and w==0xffff else ((v&0x7fff)<<16)|w)
p=0
def rd():
    global p
    v=d[p];p+=1
    return v
EOF=-1
BASIC,RSTART,BSTART,PBSTART,SBSTART,TSTART,RSTOP,BEND,SLBACK,SLENTRY,PLBACK,LEND=range(1,13)
rd();rd();MAXTT=rd()
class S: pass
states=[]
for i in range(rd()):
    s=S();s.n=i;s.type=rd();s.rule=rd();s.end=None;s.tr=[]
    if s.type in(LEND,BSTART,PBSTART,SBSTART): s.end=rd()
    states.append(s)
ng=[rd() for _ in range(rd())]
precs=[rd() for _ in range(rd())]
rules=[rd() for _ in range(rd())]
modes=[rd() for _ in range(rd())]
sets=[]
for _ in range(rd()):
    k=rd();e=rd();st=set([EOF] if e else [])
    for _ in range(k):
        a=rd();b=rd();st|=set(range(a,b+1))
    sets.append(st)
stop={}
for s in states:
    if s.type==RSTOP: stop[s.rule]=s.n
# transitions: (kind,target,arg...)
for _ in range(rd()):
    a,b,t,x,y,z=[rd() for _ in range(6)]
    if t==1: tr=('eps',b,-1)
    elif t==3: tr=('rule',x,b,y,z)   # start, follow, ruleidx, prec
    elif t==5: tr=('set',b,{EOF} if z else {x})
    elif t==7: tr=('set',b,sets[x])
    elif t==6: tr=('act',b)
    elif t==10: tr=('prec',b,x)
    else: raise Exception(t)
    states[a].tr.append(tr)
decs=[rd() for _ in range(rd())]
assert p==len(d),(p,len(d))
for s in states:
    for t in s.tr:
        if t[0]=='rule':
            o=-1
            if t[1] in precs and t[4]==0: o=states[t[1]].rule
            states[stop[states[t[1]].rule]].tr.append(('eps',t[2],o))
isPrecDec={s.n: s.type==SLENTRY and rules[s.rule] in precs and states[s.tr[-1][1]].type==LEND and states[states[s.tr[-1][1]].tr[0][1]].type==RSTOP for s in states}
def isEps(t): return t[0] in('eps','rule','act','prec')
for s in states: s.epsOnly=len(s.tr)>0 and all(isEps(t) for t in s.tr)
# contexts: frozenset of (ret,parent) ; EMPTY = frozenset({(None,None)})
EMPTY=frozenset({(None,None)})
def single(parent,ret): return frozenset({(ret,parent)})
def hasEmpty(c): return (None,None) in c
def merge(a,b,wild):
    if a==b: return a
    if wild and (a==EMPTY or b==EMPTY): return EMPTY
    m={}
    for r,p in list(a)+list(b):
        if r in m and r is not None: m[r]=merge(m[r],p,wild)
        else: m[r]=p
    return frozenset(m.items())
def fromCtx(ctx):
    # ctx: parser context; returns prediction context
    if ctx is None or ctx.parent is None: return EMPTY
    par=fromCtx(ctx.parent)
    t=states[ctx.inv].tr[0]
    return single(par,t[2])
class Cfg:
    __slots__=('s','alt','c','sem','out','sup')
    def __init__(q,s,alt,c,sem,out=0,sup=False): q.s=s;q.alt=alt;q.c=c;q.sem=sem;q.out=out;q.sup=sup
    def key(q): return (q.s,q.alt,q.c,q.sem,q.sup)
# sem: None=NONE ; frozenset of precedences (and)
class CSet:
    def __init__(q,full): q.full=full;q.m={};q.hasSem=False
    def add(q,c):
        if c.sem is not None: q.hasSem=True
        k=(c.s,c.alt,c.sem)
        e=q.m.get(k)
        if e is None: q.m[k]=c;return
        e.out=max(e.out,c.out)
        if c.sup: e.sup=True
        e.c=merge(e.c,c.c,not q.full)
    def __iter__(q): return iter(list(q.m.values()))
class NoViable(Exception): pass
class Mismatch(Exception): pass
class Sim:
    def __init__(q,parser): q.P=parser;q.start={}
    def predict(q,toks,dec,ctx):
        q.outer=ctx;q.dec=dec;q.precDfa=isPrecDec[decs[dec]]
        q.st=states[decs[dec]]
        s0=q.startState(False,EMPTY)
        if q.precDfa: s0=q.precFilter(s0)
        return q.exec(s0,toks)
    def startState(q,full,init):
        cs=CSet(full)
        for i,t in enumerate(q.st.tr):
            assert t[0] in('eps',)
            c=Cfg(t[1],i+1,init,None)
            q.closure(c,cs,set(),True,full,0,False)
        return cs
    def precFilter(q,cs):
        r=CSet(cs.full);a1={}
        for c in cs:
            if c.alt!=1: continue
            if c.sem is not None and not all(x>=q.P.prec[-1] for x in c.sem): continue
            a1[c.s]=c.c
            r.add(Cfg(c.s,c.alt,c.c,None,c.out,c.sup))
        for c in cs:
            if c.alt==1: continue
            if not c.sup and c.s in a1 and a1[c.s]==c.c: continue
            r.add(c)
        return r
    def canDrop(q,c):
        s=states[c.s]
        if s.type!=SLENTRY or not isPrecDec[s.n] or c.c==EMPTY or hasEmpty(c.c): return False
        for r,_ in c.c:
            if states[r].rule!=s.rule: return False
        be=states[s.tr[0][1]].end
        for r,_ in c.c:
            R=states[r]
            if len(R.tr)!=1 or not isEps(R.tr[0]): return False
            if R.tr[0][0]=='rule': T=states[R.tr[0][1]]
            else: T=states[R.tr[0][1]]
            if R.type==BEND and T.n==s.n: continue
            if R.n==be: continue
            if T.n==be: continue
            if T.type==BEND and len(T.tr)==1 and isEps(T.tr[0]) and T.tr[0][1]==s.n: continue
            return False
        return True
    def closure(q,c,cs,busy,coll,full,depth,eofeps):
        if states[c.s].type==RSTOP:
            if c.c!=EMPTY:
                for r,par in c.c:
                    if r is None:
                        if full: cs.add(Cfg(c.s,c.alt,EMPTY,c.sem,c.out,c.sup))
                        else: q.closure_(c,cs,busy,coll,full,depth,eofeps)
                        continue
                    n=Cfg(r,c.alt,par,c.sem,c.out)
                    q.closure(n,cs,busy,coll,full,depth-1,eofeps)
                return
            elif full:
                cs.add(c);return
        q.closure_(c,cs,busy,coll,full,depth,eofeps)
    def closure_(q,c,cs,busy,coll,full,depth,eofeps):
        s=states[c.s]
        if not s.epsOnly: cs.add(Cfg(c.s,c.alt,c.c,c.sem,c.out,c.sup))
        for i,t in enumerate(s.tr):
            if i==0 and q.canDrop(c): continue
            cont=t[0]!='act' and coll
            n=None
            if t[0]=='rule': n=Cfg(t[1],c.alt,single(c.c,t[2]),c.sem,c.out,c.sup)
            elif t[0] in('eps','act'): n=Cfg(t[1],c.alt,c.c,c.sem,c.out,c.sup)
            elif t[0]=='prec':
                if cont and depth==0:
                    if full:
                        if t[2]>=q.P.prec[-1]: n=Cfg(t[1],c.alt,c.c,c.sem,c.out,c.sup)
                    else: n=Cfg(t[1],c.alt,c.c,frozenset({t[2]})|(c.sem or frozenset()),c.out,c.sup)
                else: n=Cfg(t[1],c.alt,c.c,c.sem,c.out,c.sup)
            elif t[0]=='set' and eofeps and EOF in t[2]: n=Cfg(t[1],c.alt,c.c,c.sem,c.out,c.sup)
            if n is None: continue
            nd=depth
            if s.type==RSTOP:
                assert not full
                if q.precDfa and t[2]==q.st.rule: n.sup=True
                n.out+=1
                if n.key() in busy: continue
                busy.add(n.key())
                nd-=1
            else:
                if not isEps(t):
                    if n.key() in busy: continue
                    busy.add(n.key())
                if t[0]=='rule' and nd>=0: nd+=1
            q.closure(n,cs,busy,cont,full,nd,eofeps)
    def reach(q,cs,t,full):
        inter=CSet(full);skipped=[]
        for c in cs:
            if states[c.s].type==RSTOP:
                if full or t==EOF: skipped.append(c)
                continue
            for tr in states[c.s].tr:
                if tr[0]=='set' and t in tr[2]: inter.add(Cfg(tr[1],c.alt,c.c,c.sem,c.out,c.sup))
        r=None
        if not skipped and t!=EOF:
            if len(inter.m)==1 or len({c.alt for c in inter})==1: r=inter
        if r is None:
            r=CSet(full);busy=set()
            for c in inter: q.closure(c,r,busy,False,full,0,t==EOF)
        if t==EOF:
            if not all(states[c.s].type==RSTOP for c in r):
                r2=CSet(full)
                for c in r:
                    if states[c.s].type==RSTOP: r2.add(c)
                r=r2
        if skipped and (not full or not any(states[c.s].type==RSTOP for c in r)):
            for c in skipped: r.add(c)
        if not r.m: return None
        return r
    def subsets(q,cs):
        m={}
        for c in cs: m.setdefault((c.s,c.c),set()).add(c.alt)
        return list(m.values())
    def finished(q,cs):
        def fin(L):
            a=[c.alt for c in L if c.out>0 or (states[c.s].type==RSTOP and hasEmpty(c.c))]
            return min(a) if a else None
        ok=[c for c in cs if c.sem is None or all(x>=q.P.prec[-1] for x in c.sem)]
        bad=[c for c in cs if not(c.sem is None or all(x>=q.P.prec[-1] for x in c.sem))]
        a=fin(ok)
        if a is not None: return a
        return fin(bad)
    def preds(q,cs,alts):
        # altToPred: dict alt-> None(NONE) or list of sems
        m={}
        for c in cs:
            if c.alt in alts: m.setdefault(c.alt,[]).append(c.sem)
        res={};n=0
        for a in alts:
            L=m.get(a,[])
            if not L or any(x is None for x in L): res[a]=None
            else: res[a]=L;n+=1
        return res if n else None
    def evalp(q,preds):
        return sorted(a for a,L in preds.items() if L is None or any(all(x>=q.P.prec[-1] for x in s) for s in L))
    def exec(q,s0,toks):
        prev=s0;i=0
        la=lambda i: toks[i] if i<len(toks) else EOF
        t=la(0)
        while True:
            D=q.reach(prev,t,False)
            if D is None:
                a=q.finished(prev)
                if a is None: raise NoViable()
                return a
            alts={c.alt for c in D}
            acc=False;fullreq=False
            if len(alts)==1: acc=True;conf=alts
            else:
                allstop=all(states[c.s].type==RSTOP for c in D)
                heur=False
                if not allstop:
                    sub=q.subsets(D)
                    bys={}
                    for c in D: bys.setdefault(c.s,set()).add(c.alt)
                    heur=any(len(x)>1 for x in sub) and not any(len(x)==1 for x in bys.values())
                if allstop or heur:
                    acc=True;fullreq=True
                    conf=set().union(*q.subsets(D))
            if acc:
                preds=q.preds(D,conf) if D.hasSem else None
                if fullreq:
                    if preds is not None:
                        v=q.evalp(preds)
                        if len(v)==1: return v[0]
                    return q.execFull(toks)
                if preds is None: return min(conf)
                v=q.evalp(preds)
                if not v: raise NoViable()
                return v[0]
            prev=D
            if t!=EOF: i+=1;t=la(i)
    def execFull(q,toks):
        prev=q.startState(True,fromCtx(q.outer));i=0
        la=lambda i: toks[i] if i<len(toks) else EOF
        t=la(0)
        while True:
            R=q.reach(prev,t,True)
            if R is None:
                a=q.finished(prev)
                if a is None: raise NoViable()
                return a
            alts={c.alt for c in R}
            if len(alts)==1: return alts.pop()
            mins={min(x) for x in q.subsets(R)}
            if len(mins)==1: return mins.pop()
            prev=R
            if t!=EOF: i+=1;t=la(i)
# LL1 analysis
EPS='eps'
def look(s,ctx):
    """ctx None: local; else prediction context"""
    res=set();busy=set()
    def go(s,c,called):
        k=(s,c)
        if k in busy: return
        busy.add(k)
        if states[s].type==RSTOP:
            if c is None: res.add(EPS);return
            if c==EMPTY: res.add(EOF);return
            r=states[s].rule
            for ret,par in c:
                go(ret,par,called-{r})
            return
        for t in states[s].tr:
            if t[0]=='rule':
                r=states[t[1]].rule
                if r in called: continue
                go(t[1],single(c,t[2]) if c is not None else frozenset({(t[2],None)}),called|{r})
            elif t[0] in('eps','act','prec'): go(t[1],c,called)
            else: res.update(t[2])
    go(s,ctx,frozenset())
    return res
_nt={}
def nextTokens(s):
    if s not in _nt: _nt[s]=look(s,None)
    return _nt[s]
class Ctx:
    def __init__(q,parent,inv,label): q.parent=parent;q.inv=inv;q.label=label;q.ch=[];q.exc=False;q.start=None;q.f={}
TOK={'comma':1,'IN':2,'TO':3,'AND':4,'OR':5,'NOT':6,'TRUE':7,'FALSE':8,'ALL':9,'ANY':10,'MIN':11,'+':21,'-':22,'*':23,'/':24,'%':25,'^':26,'(':33,')':34,'DEC':35,'VER':36,'INT':37,'DATE':38,'DT':39,'WORD':41,'F':44}
class Parser:
    def __init__(q,toks):
        q.toks=toks;q.i=0;q.state=-1;q.ctx=None;q.prec=[0];q.rec=False;q.lei=-1;q.les=None;q.errs=0;q.sim=Sim(q)
    def la(q,k=1):
        j=q.i+k-1
        return q.toks[j] if j<len(q.toks) else EOF
    def consume(q):
        o=(q.i if q.i<len(q.toks) else EOF)
        if q.la()!=EOF: q.i+=1
        q.ctx.ch.append(('err' if q.rec else 'tok',o))
    def reportMatch(q): q.rec=False;q.les=None;q.lei=-1
    def begin(q):
        q.rec=True
    def report(q):
        if q.rec: return
        q.begin();q.errs+=1
    def match(q,t):
        if q.la()==t:
            q.reportMatch();j=q.i;q.consume();return j
        t0=q.recoverInline()
        if t0==-1: q.ctx.ch.append(('err',None))
        return t0
    def expected(q): return look(q.state,fromCtx(q.ctx))
    def std(q):
        if q.la(2) in q.expected():
            q.report();q.consume();j=q.i;q.reportMatch();return j
        return None
    def sti(q):
        nx=states[q.state].tr[0]
        nx=nx[2] if nx[0]=='rule' else nx[1]
        if q.la() in look(nx,fromCtx(q.ctx)):
            q.report();return True
        return False
    def recoverInline(q):
        j=q.std()
        if j is not None:
            q.consume();return j
        if q.sti(): return -1
        raise Mismatch()
    def sync(q):
        if q.rec: return
        s=states[q.state];nt=nextTokens(q.state)
        if q.la() in nt or EPS in nt: return
        if s.type in(BSTART,SBSTART,PBSTART,SLENTRY):
            if q.std() is not None: return
            raise Mismatch()
        if s.type in(PLBACK,SLBACK):
            q.report()
            q.consumeUntil(q.expected()|q.recSet())
    def recSet(q):
        c=q.ctx;r=set()
        while c is not None and c.inv>=0:
            r|=nextTokens(states[c.inv].tr[0][2]);c=c.parent
        r.discard(EPS);return r
    def consumeUntil(q,s):
        while q.la()!=EOF and q.la() not in s: q.consume()
    def recover(q):
        if q.lei==q.i and q.les is not None and q.state in q.les: q.consume()
        q.lei=q.i
        q.les=(q.les or set())|{q.state}
        q.consumeUntil(q.recSet())
    def rule(q,label,f):
        c=Ctx(q.ctx,q.state,label);c.start=q.i
        if q.ctx is not None: q.ctx.ch.append(c)
        q.ctx=c
        try: f(c)
        except (NoViable,Mismatch):
            c.exc=True;q.report();q.recover()
        q.ctx=c.parent
        if q.ctx is not None: q.state=c.inv
        return c
    def predict(q,dec): return q.sim.predict(q.toks[q.i:],dec,q.ctx)
    def parse(q):
        def f(c):
            q.state=22;q.expr(0);q.state=23;q.match(EOF)
        return q.rule('parse',f)
    def expr(q,p):
        parent=q.ctx;pst=q.state
        c=Ctx(parent,pst,'expr');c.start=q.i;q.ctx=c;q.prec.append(p)
        try:
            q.state=53;q.sync();a=q.predict(1)
            c.label='e%d'%a
            if a==1:
                q.state=26;q.match(33);q.state=27;q.expr(0);q.state=28;q.match(34)
            elif a==2:
                q.state=30;q.match(6);q.state=31;q.expr(15)
            elif a==3:
                q.state=32;q.match(22);q.state=33;c.f['exp']=q.expr(13)
            elif a==4:
                q.state=34;c.f['left']=q.setrule('fn',90,set(range(11,21)));q.state=35;c.f['data']=q.wordlist()
            elif a==5:
                q.state=37;c.f['types']=q.types()
            elif a==6:
                q.state=38;c.f['field']=q.match(44);q.state=39;c.f['lower']=q.setrule('num',129,{35,37});q.state=40;q.match(3);q.state=41;c.f['upper']=q.setrule('num',129,{35,37})
            elif a==7:
                q.state=43;c.f['field']=q.match(44);q.state=45;q.sync()
                if q.la()==6: q.state=44;c.f['not']=q.match(6)
                q.state=47;q.match(2);q.state=48;c.f['data']=q.wordlist()
            elif a==8:
                q.state=49;c.f['field']=q.match(44);q.state=50;c.f['op']=q.setrule('arr',127,{9,10});q.state=51;c.f['data']=q.wordlist()
            q.state=83;q.sync();alt=q.predict(3)
            while alt!=2:
                prev=c
                q.state=81;q.sync();b=q.predict(2)
                c=Ctx(parent,pst,'b%d'%b);c.start=prev.start;c.ch=[prev];prev.parent=c;prev.inv=2;c.f['left']=prev
                q.ctx=c
                pv,s0,rp={1:(14,55,15),2:(12,59,13),3:(11,62,12),4:(10,65,11),5:(9,68,10),6:(8,71,9),7:(7,74,8),8:(5,77,6)}[b]
                q.state=s0
                if pv<q.prec[-1]: raise Exception('failed predicate')
                q.state=s0+1
                if b==1: c.f['op']=q.setrule('cmp',86,set(range(27,33)))
                elif b==8: c.f['op']=q.setrule('binary',142,{4,5})
                else: c.f['op']=q.match({2:26,3:24,4:23,5:25,6:21,7:22}[b])
                q.state=s0+2;c.f['right']=q.expr(rp)
                q.state=85;q.sync();alt=q.predict(3)
        except (NoViable,Mismatch):
            c.exc=True;q.report();q.recover()
        q.prec.pop();q.state=pst;q.ctx=parent
        parent.ch.append(c)
        c.parent=parent;c.inv=pst
        return c
    def setrule(q,label,st,S):
        def f(c):
            q.state=st
            if q.la() in S: q.reportMatch();q.consume()
            else: q.recoverInline()
        return q.rule(label,f)
    def types(q):
        def f(c):
            q.state=140;q.sync();a=q.predict(9);c.f['alt']=a
            if a==4:
                q.state=134;q.setrule('bool',144,{7,8})
            elif a!=9:
                q.state=130+a;q.match({1:37,2:35,3:36,5:41,6:44,7:38,8:39}[a])
        return q.rule('types',f)
    def wordlist(q):
        def f(c):
            q.state=92;q.match(33);q.state=96;q.sync();a=q.predict(4)
            assert a==2
            q.state=99;q.expr(0);q.state=103;q.sync()
            assert q.la()!=40
            q.state=122;q.sync()
            while q.la()==1:
                q.state=106;q.match(1);q.state=110;q.sync();a=q.predict(6);assert a==2
                q.state=113;q.expr(0);q.state=117;q.sync()
                q.state=124;q.sync()
            q.state=125;q.match(34)
        return q.rule('wl',f)
def show(c,q):
    def tk(i): return 'E' if i==len(q.toks) or i==-1 else str(i)
    def txt(c):
        r=[]
        for x in c.ch:
            if isinstance(x,Ctx): r+=txt(x)
            elif x[1] is not None: r.append(tk(x[1]))
        return r
    def wl(w):
        if w is None: return 'null'
        items=[show(x,q) for x in w.ch if isinstance(x,Ctx)]
        return ('none' if not w.ch else '')+('!' if w.exc else '')+'['+' '.join(items)+']'
    L=c.label
    if L=='expr': return 'bad'
    if L=='e1': return '(p %s)'%show([x for x in c.ch if isinstance(x,Ctx)][0],q)
    if L=='e2': return '(not %s)'%show([x for x in c.ch if isinstance(x,Ctx)][0],q)
    if L=='e3': return '(neg %s)'%show(c.f['exp'],q)
    if L=='e4': return '(fn %s)'%wl(c.f.get('data'))
    if L=='e5': return '(t %s %s)'%(tk(c.start),'e' if not c.f['types'].ch else 'f')
    if L=='e6': return '(to %s %s %s)'%(tk(c.f['field']),tk(c.f['lower'].start),'null' if 'upper' not in c.f else tk(c.f['upper'].start)+':'+'.'.join(txt(c.f['upper'])))
    if L=='e7': return '(in %s %s %s)'%(tk(c.f['field']),'n' if 'not' in c.f else 'p',wl(c.f.get('data')))
    if L=='e8': return '(arr %s %s)'%(tk(c.f['field']),wl(c.f.get('data')))
    return '(b%s %s %s)'%(L[1:],show(c.f['left'],q),show(c.f['right'],q))
def run(toks):
    q=Parser(toks);c=q.parse()
    e=[x for x in c.ch if isinstance(x,Ctx)][0]
    return show(e,q),q.errs
if __name__=='__main__':
    for k in(53,83,81,45,96,103,122,110,117,124,54,82,28,40,41,23): print(k,states[k].type,nextTokens(k))
    for s in ['F cmp INT','( F cmp INT','F cmp INT )','- F F','- INT F','( - F','- IN','F INT INT','F NOT ( INT )','F IN INT','MIN ( INT','- ( F F )','F TO INT', 'F INT TO F INT','F INT','- F cmp INT','- ( F cmp INT )','NOT - F F']:
        t=[TOK.get(x,27) for x in s.split()]
        print(s,'=>',run(t))
