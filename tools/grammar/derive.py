import re,sys
src=open('/verif/lean/Verif/Model/Grammar/Table.lean').read()
nts={}
for m in re.finditer(r'^def (\w+|«\w+») : NT := (\d+)',src,re.M): nts[m.group(1)]=int(m.group(2))
rules=[]
for m in re.finditer(r'^  ⟨NT\.(\S+), (\d+), \[(.*)\]⟩,?\]?$',src,re.M):
    body=m.group(3)
    syms=[]
    # strip actions
    b=re.sub(r'\.a ⟨.*?⟩(?=, \.[tna] |, \.err|$)','',body)
    err='.err' in b
    for k,v in re.findall(r'\.([tn]) (?:NT)?\.?(\S+?)(?=,|$)',b): syms.append((k,v))
    rules.append((m.group(1),int(m.group(2)),syms,err))
if __name__=='__main__': print(len(rules),rules[0],rules[333])
def derive(start,toks):
    n=len(toks)
    D={} # (nt,i,j)->(rule,kids)
    nullchanged=True
    def seqs(syms,i,j):
        # find kids list
        def rec(k,p):
            if k==len(syms): return [] if p==j else None
            t,v=syms[k]
            if t=='t':
                if p<j and toks[p]==v:
                    r=rec(k+1,p+1)
                    return None if r is None else [('leaf',v)]+r
                return None
            for q in range(p,j+1):
                if (v,p,q) in D:
                    r=rec(k+1,q)
                    if r is not None: return [D[(v,p,q)]]+r
            return None
        return rec(0,i)
    for L in range(0,n+1):
        for i in range(0,n-L+1):
            j=i+L
            ch=True
            while ch:
                ch=False
                for ri,(l,ln,sy,err) in enumerate(rules):
                    if err or (l,i,j) in D: continue
                    k=seqs(sy,i,j)
                    if k is not None:
                        D[(l,i,j)]=('node',ri,k); ch=True
    return D.get((start,0,n))
def show(t):
    if t[0]=='leaf': return f'.leaf .{t[1]}'
    return f'.node {t[1]} ['+', '.join(show(k) for k in t[2])+']'
if __name__=='__main__':
    for a in sys.argv[1:]:
        print(show(derive('program',a.split())))
