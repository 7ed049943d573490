import random,sys
sys.path.insert(0,'/verif/tools/recovery')
import antlr
random.seed(int(sys.argv[1]));N=int(sys.argv[2])
LIT=[35,36,37,38,39,41,7]
OPS=[4,5,21,22,23,24,25,26,27]
ALL=[1,2,3,4,5,6,7,9,10,11,21,22,23,24,25,26,27,33,34,35,36,37,38,39,41,44]
def e(d):
    r=random.random()
    if d<=0 or r<.35: return [random.choice(LIT+[44]*4)]
    if r<.5: return e(d-1)+[random.choice(OPS)]+e(d-1)
    if r<.6: return [33]+e(d-1)+[34]
    if r<.66: return [6]+e(d-1)
    if r<.74: return [22]+e(d-1)
    if r<.8: return [11]+wl(d-1)
    if r<.85: return [44,random.choice([35,37]),3,random.choice([35,37])]
    if r<.91: return [44]+([6] if random.random()<.5 else [])+[2]+wl(d-1)
    if r<.95: return [44,random.choice([9,10])]+wl(d-1)
    return []
def wl(d):
    r=[33]+e(d)
    for _ in range(random.choice([0,0,1,2])): r+=[1]+e(d)
    return r+[34]
def mut(t):
    t=list(t)
    for _ in range(random.choice([0,1,1,2,3])):
        k=random.random()
        if k<.4 and t: del t[random.randrange(len(t))]
        elif k<.7: t.insert(random.randrange(len(t)+1),random.choice(ALL))
        elif t: t[random.randrange(len(t))]=random.choice(ALL)
    return t
out=open(sys.argv[3],'w');inp=open(sys.argv[4],'w')
for _ in range(N):
    if random.random()<.25: t=[random.choice(ALL) for _ in range(random.randrange(0,9))]
    else: t=mut(e(random.choice([1,2,3,4])))
    if len(t)>25: t=t[:25]
    s,n=antlr.run(t)
    inp.write('x '+' '.join(map(str,t))+'\n');out.write('%s %d\n'%(s,n))
