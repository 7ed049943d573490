import sys,random,json
from atn import *
D='/repo/src/main/java/com/github/sidhant92/boolparser/parser/antlr/'
A=deser(decode16(load(D+'BooleanExpressionLexer.java')))
stopStates=set(A.ruleStop.values())
DEC={3,4,5,6,9,10,11}  # decision-ish
LOOPBACKS=True
# add implicit edges: LOOP_END etc. have explicit; BlockEnd explicit? check states with no transitions
def trans(s):
    return A.tr[s]
def matches(tr,c):
    ty,t,x,y,z=tr
    if ty==5: return (c==-1) if z else c==x
    if ty==2: return x<=c<=y
    if ty==7: return any(a<=c<=b for a,b in A.sets[x])
    if ty==8: return c!=-1 and not any(a<=c<=b for a,b in A.sets[x])
    if ty==9: return c!=-1
    return False
def closure(cfg,out,seen,reached):
    """returns whether accept reached (currentAltReachedAcceptState)"""
    st,alt,stack,ng=cfg
    if st in stopStates:
        if not stack:
            if cfg not in seen: seen.add(cfg); out.append(cfg)
            return True
        f,rest=stack
        return closure((f,alt,rest,ng),out,seen,reached) or reached
    trs=trans(st)
    # onlyHasEpsilonTransitions false -> add
    if any(t[0] not in (1,3,4,6,10) for t in trs):
        if not reached or not ng:
            if cfg not in seen: seen.add(cfg); out.append(cfg)
    for ty,t,x,y,z in trs:
        if ty==1 or ty==6:
            c=(t,alt,stack,ng or (t in A.nongreedy))
        elif ty==3: # rule: (src, trg=ruleStart? serialized: trg=followState? )
            # serialized RULE edge: src, trg, RULE, arg1=ruleStart, arg2=ruleIndex, arg3=prec ; trg is follow state
            c=(x,alt,(t,stack),ng or (x in A.nongreedy))
        else: continue
        reached=closure(c,out,seen,reached)
    return reached
sys.setrecursionlimit(10000)
def start():
    out=[];seen=set()
    for i,(ty,t,*_) in enumerate(A.tr[A.modes[0]]):
        closure((t,i+1,(),False),out,seen,False)
    return out
START=start()
def step(cfgs,c):
    out=[];seen=set();skip=0
    for cfg in cfgs:
        reached = cfg[1]==skip
        if reached and cfg[3]: continue
        for tr in trans(cfg[0]):
            if matches(tr,c):
                n=(tr[1],cfg[1],cfg[2],cfg[3] or (tr[1] in A.nongreedy))
                if closure(n,out,seen,reached):
                    skip=cfg[1]; break
    return out
def nexttok(s,i):
    """returns (kind,endindex) or None with end index of dropped"""
    cfgs=START;j=i;acc=None
    while True:
        c=ord(s[j]) if j<len(s) else -1
        nxt=step(cfgs,c)
        if not nxt: break
        if c!=-1: j+=1
        a=[x for x in nxt if x[0] in stopStates and not x[2]]
        if a: acc=(a[0][1],j)   # firstConfigWithRuleStopState: alt = rule index+1
        if c==-1: break
        cfgs=nxt
    if acc: return acc
    # error: position j (chars consumed); recover consumes one if not EOF
    if j<len(s): j+=1
    return (None,j)
# rule alt -> token type by start states order
alt2tok={}
for i,(ty,t,*_) in enumerate(A.tr[A.modes[0]]):
    r=A.states[t][1]; alt2tok[i+1]=A.ruleTok[r]
import re
src=open(D+'BooleanExpressionLexer.java').read()
names=dict((int(b),a) for a,b in re.findall(r'(\w+)=(\d+)',src[src.index('T__0=1'):src.index('DQ=47')+6]))
def lex(s):
    i=0;res=[]
    while i<len(s):
        k,j=nexttok(s,i)
        if k is not None and names[alt2tok[k]]!='WS': res.append((names[alt2tok[k]],s[i:j]))
        i=j
    return res
if __name__=='__main__':
    for t in sys.argv[1:]: print(t,lex(t))
