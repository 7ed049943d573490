import re,sys
def load(path):
    src=open(path).read()
    i=src.index('_serializedATN =')
    j=src.index(';\n',i)
    parts=re.findall(r'"((?:[^"\\]|\\.)*)"',src[i:j],re.S)
    out=[]
    for p in parts:
        k=0
        while k<len(p):
            c=p[k]
            if c=='\\':
                d=p[k+1]
                if d=='u': out.append(int(p[k+2:k+6],16)); k+=6; continue
                m={'b':8,'t':9,'n':10,'f':12,'r':13,'"':34,"'":39,'\\':92}
                if d in m: out.append(m[d]); k+=2; continue
                mm=re.match(r'[0-7]{1,3}',p[k+1:k+4]); out.append(int(mm.group(),8)); k+=1+len(mm.group()); continue
            out.append(ord(c)); k+=1
    return out
def decode16(data):
    # ATNDeserializer.decodeIntsEncodedAs16BitWords
    res=[];i=0
    while i<len(data):
        v=data[i]; i+=1
        if v&0x8000==0: res.append(v)
        else:
            w=data[i]; i+=1
            if v==0xffff and w==0xffff: res.append(-1)
            else: res.append(((v&0x7fff)<<16)|(w&0xffff))
    return res
class ATN: pass
def deser(data):
    p=0
    def rd():
        nonlocal p
        v=data[p]; p+=1; return v
    a=ATN()
    ver=rd(); assert ver==4,ver
    a.gtype=rd(); a.maxTok=rd()
    ns=rd(); a.states=[]
    a.endState={}; a.loopback={}
    for i in range(ns):
        t=rd()
        if t==0: a.states.append((0,None)); continue
        r=rd()
        a.states.append((t,r))
        if t==12: a.loopback[i]=rd()   # LOOP_END
        elif t in (3,4,5): a.endState[i]=rd() # BLOCK_START types
    n=rd(); a.nongreedy=set(rd() for _ in range(n))
    n=rd(); a.prec=set(rd() for _ in range(n))
    nr=rd(); a.ruleStart=[];a.ruleTok=[]
    for i in range(nr):
        a.ruleStart.append(rd())
        if a.gtype==0: a.ruleTok.append(rd())
    a.ruleStop={}
    for i,(t,r) in enumerate(a.states):
        if t==7: a.ruleStop[r]=i
    nm=rd(); a.modes=[rd() for _ in range(nm)]
    nset=rd(); a.sets=[]
    for i in range(nset):
        k=rd(); eof=rd()
        s=[]
        if eof: s.append((-1,-1))
        for _ in range(k):
            x=rd();y=rd(); s.append((x,y))
        a.sets.append(s)
    ne=rd(); a.tr={i:[] for i in range(ns)}
    for _ in range(ne):
        s,t,ty,x,y,z=rd(),rd(),rd(),rd(),rd(),rd()
        a.tr[s].append((ty,t,x,y,z))
    # rule return edges handled with stack; block/loop edges:
    for i,(t,r) in enumerate(a.states):
        pass
    nd=rd(); a.dec=[rd() for _ in range(nd)]
    if a.gtype==0:
        na=rd(); a.actions=[(rd(),rd(),rd()) for _ in range(na)]
    assert p==len(data),(p,len(data))
    return a
if __name__=='__main__':
    a=deser(decode16(load(sys.argv[1])))
    print(len(a.states),a.modes,a.nongreedy,a.actions if a.gtype==0 else '')
    for i,(t,r) in enumerate(a.states): print(i,t,r,a.tr[i])
