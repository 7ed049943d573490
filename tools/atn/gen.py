import random
from lexsim import lex
random.seed(7)
frag=["a","b.c","x_1","AND","and","&&","OR","||","|","&","!","!=","=","<",">","<=",">=","(",")",",","'","\"","'q r'","\"z'\"","12","1.5","1.2.3","12.3.4","0.1.","2023-01-02","2023-01-0","2023-01-02 10:11:12","2023-01-02 10:1","-","+","*","/","%","^","IN","in","TO","NOT","not","true","FALSE","True","MIN","max","LEN","days_elapsed","DAYS_ELAPSED","CONTAINS_ANY","contains_all","INT","int","@","#","é","\t"," ","  ",".","_","5","7"]
ss=set()
while len(ss)<6000:
    n=random.randint(1,7)
    ss.add("".join(random.choice(frag)+random.choice([""," ",""]) for _ in range(n)))
ss=sorted(ss)
M={'T__0':'comma','IN':'kIn','TO':'kTo','AND':'kAnd','OR':'kOr','NOT':'kNot','TRUE':'kTrue','FALSE':'kFalse','CONTAINS_ALL':'cAll','CONTAINS_ANY':'cAny','LPAREN':'lparen','RPAREN':'rparen','DECIMAL':'decimal','APP_VERSION':'version','INTEGER':'integer','DATE':'date','DATETIME':'datetime','WORD':'word','FIELD':'field'}
for f in ['MIN','MAX','AVG','SUM','MEAN','MODE','MEDIAN','LEN','INT']: M[f]='fn '+f.lower()
M['DAYS_ELAPSED']='fn daysElapsed'
for a,b in zip(['ADD','SUBTRACT','MULTIPLY','DIVIDE','MODULUS','EXPONENT'],['add','sub','mul','div','mod','exp']): M[a]='arith '+b
for a in ['NE','GT','GE','LT','LE','EQ']: M[a]='cmp '+a.lower()
with open('in.txt','w') as f, open('exp.txt','w') as g:
    for s in ss:
        f.write(s+"\n")
        g.write("\x01".join(M[k]+":"+t for k,t in lex(s))+"\n")
