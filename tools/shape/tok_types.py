import sys; sys.path.insert(0,'/root/work/sh'); sys.path.insert(0,'/root/work/sb')
import ab
from ab import R,E,P,nts,failing,F
# value: tok S | otok S | label Sp Sq | other
NEED={}
def need(fs,*args):
    for f in fs.split(): NEED[f]=args
O=None
need('integer float rational complex unaryNum lvar ivar gvar cvar backRef const_ arg shadowarg optarg unaryOp callFn callFnParen',('tok','text'))
need('constFetch callDot callDotParen callDotOpt attrAsgn attrAsgnMasgn',O,O,('tok','text'))
need('constGlobal defMethod defEndless binaryOp opAssign',O,('tok','text'))
need('defSingleton defEndlessSingleton',O,O,O,('tok','text'))
need('restarg kwrestarg blockarg',O,('otok','text'))
need('kwarg kwoptarg',('tok','text label'))
need('nthRef',('tok','text ascii'))
need('matchVar',('tok','text named')); need('matchRest',O,('otok','text named'))
need('regexp',O,O,('tok','text opts'))
need('pairKeyword',('tok','label')); need('pairLabel',('tok','text named label')); need('pairQuoted',O,O,('tok','quote'))
need('matchPair',('label','label','quote')); need('matchLabel',('label','text named label',''))
need('kwargName',('tok','named'))
ALL=frozenset(['text','named','ascii','label','quote','opts'])
OTHER=('other',)
req={}  # type -> set of needs
def join(a,b):
    if a==b: return a
    if a[0]!=b[0]:
        return OTHER
    return (a[0],)+tuple(x|y for x,y in zip(a[1:],b[1:]))
def ap(f,x):
    if f=='someT': return ('otok',x[0][1])
    if f=='noneT': return ('otok',F())
    if f=='plainLabel': return ('label',x[0][1],F())
    if f=='quotedLabel': return ('label',F(),x[2][1])
    for n,a in zip(NEED.get(f,()),x):
        if n is None: continue
        assert a[0]==n[0],(f,a,n)
        for i,r in enumerate(n[1:]):
            for t in a[1+i]: req.setdefault(t,set()).update(r.split())
    if f in('endlessName','kwargName'): return x[0]
    return OTHER
val={}
def run():
    while True:
        snap=dict(val)
        for i,(l,rhs,ln,k) in enumerate(R):
            if k not in E or failing(rhs): continue
            vs=[]
            for t in rhs:
                if t[0]=='act': vs.append(())
                elif t[1] in nts: vs.append(val.get(t[1]))
                else: vs.append((('tok',F([t[1]])),))
            if any(v is None for v in vs): continue
            def ev(e):
                if e[0]=='fld': return vs[e[1]-1][e[2]]
                return ap(e[1],[ev(a) for a in e[3]])
            new=vs[P[i][1]-1] if P[i][0]=='copy' else tuple(ev(e) for e in P[i][1])
            old=val.get(l)
            val[l]=new if old is None else tuple(join(a,b) for a,b in zip(old,new))
        if snap==val: break
run()
if __name__=='__main__':
    from collections import defaultdict
    d=defaultdict(list)
    for t,s in sorted(req.items()): d[tuple(sorted(s))].append(t)
    for s,l in d.items(): print(s,' '.join(l))
    print([n for n in nts if n not in val])
