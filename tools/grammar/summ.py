from gen_lean import *
import sys
DIMS=['env','arg','num','pv','pk']
def pops(it):  # parse generated item
    m=re.match(r'\.a ⟨(\d+), (true|false), \[(.*?)\], \[(.*)\], \[(.*?)\]⟩$',it)
    ops=[]
    d=0;cur=''
    for ch in m.group(4):
        if ch=='[': d+=1
        if ch==']': d-=1
        if ch==',' and d==0: ops.append(cur.strip()); cur=''
        else: cur+=ch
    if cur.strip(): ops.append(cur.strip())
    us=re.findall(r'\(\.(\w+), (\d+)\)',m.group(3))
    outs=[x.strip() for x in m.group(5).split(',') if x.strip()]
    return m.group(2)=='true',us,ops,outs
R=[(l,ln,[(('a',)+pops(i)) if i.startswith('.a') else ('e',) if i=='.err' else ('n',i.split('NT.')[1].strip('«»')) if i.startswith('.n') else ('t',i[4:]) for i in items]) for l,ln,items in out]
MV={'.envStatic':('env',1),'.envDynamic':('env',1),'.envPop':('env',-1),'.argPush':('arg',1),'.argPop':('arg',-1),'.numPop':('num',-1),'.pvPush':('pv',1),'.pvPop':('pv',-1),'.pkPush':('pk',1),'.pkPop':('pk',-1)}
def effects(op):
    """list of (dim, required, delta)"""
    if op.startswith('.numPush'): return [('num',0,1)]
    if op in MV:
        d,x=MV[op]
        return [(d,(2 if d=='env' else 1) if x<0 else 0,x)]
    if op.startswith('.touch'):
        return [(d,1,0) for d in re.findall(r'\.(env|arg|num|pv|pk)\b',op)]
    return []
live=[r for r in R if not any(i[0]=='e' or (i[0]=='a' and i[1]) for i in r[2])]
delta={};need={n:dict.fromkeys(DIMS,0) for n in order}
for n in order: need[n]['env']=0
ch=True
while ch:
    ch=False
    for l,ln,its in live:
        if any(i[0]=='n' and i[1] not in delta for i in its): continue
        cur=dict.fromkeys(DIMS,0); nd=dict.fromkeys(DIMS,0)
        for i in its:
            es=[]
            if i[0]=='n': es=[(d,need[i[1]][d],delta[i[1]][d]) for d in DIMS]
            if i[0]=='a': es=[e for op in i[3] for e in effects(op)]
            for d,r,x in es:
                nd[d]=max(nd[d],r-cur[d]); cur[d]+=x
        if l not in delta: delta[l]=cur; ch=True
        assert delta[l]==cur
        for d in DIMS:
            if nd[d]>need[l][d]: need[l][d]=nd[d]; ch=True
for n in order: delta.setdefault(n,dict.fromkeys(DIMS,0))
FL=list(FLAG.values())
def relf(f,default=None,table=None,check=False):
    REL={n:set() for n in order} if not check else None
    get=(lambda n: REL[n]) if not check else (lambda n: table.get(n,default))
    ch=True; bad=[]
    while ch:
        ch=False
        for l,ln,its in live if not check else R:
            for c0 in (0,1):
                S={(c0,())}; ok=True
                for i in its:
                    N=set()
                    if i[0]=='e' or (i[0]=='a' and i[1]): S=set(); break
                    for c,v in S:
                        if i[0]=='t': N.add((c,v+(None,)))
                        elif i[0]=='n':
                            for a,b,w in get(i[1]):
                                if a==c: N.add((b,v+(w,)))
                        else:
                            _,fails,us,ops,outs=i; reg=None; cc=c
                            for op in ops:
                                p=op.split()
                                if p[0]=='.flag' and p[1]=='.'+f: cc=int(p[2]=='true')
                                elif p[0]=='.restore' and p[1]=='.'+f:
                                    cc=v[int(p[2])-1]; assert cc is not None
                                elif p[0]=='.dump': reg=cc
                                elif p[0]=='.saveBool': reg=cc if p[1]=='.'+f else None
                                elif p[0]=='.carry': reg=v[int(p[1])-1]
                            v2=list(v)
                            for k,n_ in us:
                                if k!='peekNode': v2[int(n_)-1]=None
                            for o in outs:
                                o=o.split()
                                sv=reg if o[0]=='.new' else v[int(o[1])-1]
                                N.add((cc,tuple(v2)+(sv,)))
                    S=N
                for c,v in S:
                    x=(c0,c,v[-1])
                    if check:
                        if x not in get(l): bad.append((l,ln,x))
                    elif x not in REL[l]: REL[l].add(x); ch=True
    return bad if check else REL
base={(0,0,None),(1,1,None)}
loose=base|{(1,0,None)}
TAB={}
for f in FL:
    rel=relf(f)
    default=loose if f in('inDefined','inArgdef') else base
    spec={n:sorted(rel[n],key=str) for n in order if not rel[n]<=default}
    bad=relf(f,default,{n:set(v) for n,v in spec.items()},True)
    # tighten: add those needed
    it=0
    while bad and it<20:
        # restrict more NTs
        print(f,'bad',bad[:5]); it+=1; break
    TAB[f]=(default,spec)
# kinds
kinds={n:set() for n in order}
ch=True
def kof(its,idx): 
    pass
while ch:
    ch=False
    for l,ln,its in live:
        pos=[]
        for i in its:
            if i[0]=='t': pos.append({'Token'})
            elif i[0]=='n': pos.append(set(kinds[i[1]]))
            else:
                res=set()
                for o in i[4]:
                    o=o.split()
                    res|= {o[1][1:]} if o[0]=='.new' else pos[int(o[1])-1]
                pos.append(res)
        if not pos[-1]<=kinds[l]: kinds[l]|=pos[-1]; ch=True
if __name__=='__main__':
    for n in order:
        if any(delta[n].values()): print('delta',n,delta[n])
    import collections
    print(collections.Counter(str(need[n]) for n in order))
    print('program',need['program'])
    for f in FL: print(f,TAB[f][0],TAB[f][1])
    print({n:kinds[n] for n in order if kinds[n]!={'Node'}})
