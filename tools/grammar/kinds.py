from extract import *
CAM=lambda s:''.join(w.capitalize() for w in s.split('_'))
nts={r[0] for r in rules}
def results(s):
    out=[]
    for m in re.finditer(r'\$(?:<\w+>)?\$\s*=\s*(Value::(\w+)|\$(\d+))',s):
        if m.group(3): out.append(('copy',int(m.group(3))))
        else:
            k=m.group(2)
            if k.startswith('new_'): k=CAM(k[4:])
            out.append(('kind',k))
    return out
def uses(s):
    out=[]
    for m in re.finditer(r'\$<(\w+)>(\d+)|\$(\d+)',s):
        if m.group(1): out.append((m.group(1),int(m.group(2))))
        else: out.append(('raw',int(m.group(3))))
    return out
castok={'Node':{'Node'},'BoxedNode':{'Node'},'NodeList':{'NodeList'},'BoxedNodeList':{'NodeList'},'MaybeNode':{'MaybeNode'},'MaybeBoxedNode':{'MaybeNode'}}
if __name__=='__main__':
    kinds={n:set() for n in nts}
    tokset=set()
    ch=True
    def symkinds(rhs,idx):
        t=rhs[idx-1]
        if t[0]=='act':
            s=strip_comments(t[1]); o=set()
            for r in results(s):
                if r[0]=='kind': o.add(r[1])
                else: o|=symkinds(rhs,r[1])
            return o
        if t[1] in nts: return kinds[t[1]]
        if t[1]=='error': return {'ERROR'}
        tokset.add(t[1]); return {'Token'}
    while ch:
        ch=False
        for l,rhs,pos in rules:
            s=strip_comments(rhs[-1][1])
            for r in results(s):
                new={r[1]} if r[0]=='kind' else symkinds(rhs,r[1])
                if not new<=kinds[l]: kinds[l]|=new; ch=True
    for nname,ks in sorted(kinds.items()):
        if len(ks)!=1: print(nname,ks)
    for l,rhs,pos in rules:
        for idx,t in enumerate(rhs,1):
            if t[0]!='act': continue
            s=strip_comments(t[1])
            cnt={}
            for k,p in uses(s):
                cnt[p]=cnt.get(p,0)+1
                if p>=idx: print('forward',l,p,line_of(t[2])); continue
                if k=='raw': continue
                ok=castok.get(k,{k})
                sk=symkinds(rhs,p)
                if not sk<=ok: print('BADCAST',l,line_of(t[2]),k,p,sk)
            for p,c in cnt.items():
                if c>1: print('multi',l,line_of(t[2]),p,c)
    print(sorted(tokset))
