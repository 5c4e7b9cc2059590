import sys,re; sys.dont_write_bytecode=True
sys.path.insert(0,'../grammar')
import io,contextlib
from extract import rules,line_of,strip_comments
from kinds import results
from dsl import E
norm=lambda s:re.sub(r'\s+',' ',strip_comments(s)).strip()
first={}
for l,rhs,pos in rules:
    for i,t in enumerate(rhs):
        if t[0]=='act': first.setdefault(norm(t[1]),line_of(t[2]))
nts=[]
for l,_,_ in rules:
    if l not in nts: nts.append(l)
# per rule
R=[]
used=set()
for l,rhs,pos in rules:
    a=rhs[-1]; assert a[0]=='act'
    k=first[norm(a[1])]
    R.append((l,rhs,line_of(a[2]),k)); used.add(k)
if __name__=='__main__':
    fails=lambda s:'yyerror' in s and not results(s)
    for l,rhs,ln,k in R:
        if k not in E and not fails(strip_comments(rhs[-1][1])): print('missing',l,ln,k)
    for k in E:
        if k not in used: print('unused',k)
    print(len(R))
