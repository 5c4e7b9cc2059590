import sys; sys.path.insert(0,'/root/work/sh')
import tr,spec,ab
tr.run(); assert not tr.errs,tr.errs
D=spec.D; KS=spec.KS
def mask(s):
    s=set(s)
    for n in spec.order:
        if D[n][0]==s: return n+'K'
    parts=[]; left=set(s)
    while True:
        best=None
        for n in spec.order:
            st=D[n][0]
            if st<=s and len(st&left)>3 and (best is None or len(st&left)>len(D[best][0]&left)): best=n
        if best is None: break
        parts.append(best+'K'); left-=D[best][0]
    if left: parts.append('ks ['+', '.join('.'+k for k in KS if k in left)+']')
    return ' ||| '.join(parts) if parts else '0'
B=lambda b:'true' if b else 'false'
def P(s): return s if ' ' not in s else f'({s})'
def rend(a):
    k=a[0]
    if k=='tok': return '.tok'
    if k=='otok': return f'.otok {B(a[1])} {B(a[2])}'
    if k in('onode','nodes'): return f'.{k} {P(mask(a[1]))} {B(a[2])}'
    return f'.{k} {P(mask(a[1]))}'
L=[]
for n in tr.nts:
    v=tr.val.get(n)
    L.append(f'  -- {n}\n  '+('[.never]' if v is None else '['+', '.join(rend(a) for a in v)+']'))
src=open('/root/work/sh/table.lean').read().replace('@@TABLE@@',',\n'.join(L).replace('],\n','],\n'))
open('/verif/lean/Verif/Lemmas/ShapeTable.lean','w').write(src)
