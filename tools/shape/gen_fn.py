import re,sys
sys.path.insert(0,'/root/work/sh')
import tr
src=open('/verif/lean/Verif/Model/Grammar/Values.lean').read()
i=src.index('def applyFn'); body=src[i:src.index('\n\n',i)]
AP={}
ORDER=[]
for m in re.finditer(r'^  \| \.(\w+)( p)? => with(\w+) \((?:fun ([\w ]+) => )?(out[pRMB]) \.(\w+) (.*)\)$',body,re.M):
    n,p,sig,vs,k,c,e=m.groups()
    if n=='regexp': pass
    AP[n]=dict(p=bool(p),sig='' if sig=='None' else sig,vs=(vs or '').split(),k=k[3],c=c,e=e); ORDER.append(n)
TY={'T':'Token','O':'Option Token','N':'Node','P':'Option Node','L':'List Node','A':'ArgsType','K':'PKwLabel','I':'Option Token × Option Node','G':'Option Token × List Node × Option Token','E':'Option Token × Option Node'}
TY={k:(v if k not in 'IGE' else v) for k,v in TY.items()}
def lm(m): return tr.Mk(m).lean
def hyp(i,s):
    x=f'x{i}'
    if s in('T','O'): return ''
    if s=='O+': return f' (n{i} : {x}.isSome = true)'
    if s=='O-': return f' (n{i} : {x} = none)'
    k,m=s.split(' ',1); m=lm(m)
    return {'N':f' (h{i} : Ok {m} {x})','P':f' (h{i} : OkO {m} {x})','P!':f' (h{i} : OkO {m} {x}) (n{i} : {x}.isSome = true)','L':f' (h{i} : OkL {m} {x})','L+':f' (h{i} : OkL {m} {x}) (n{i} : {x} ≠ [])','A':f' (h{i} : ArgsOk {m} {x})','K':f' (h{i} : LabelOk {m} {x})','I':f' (h{i} : OkO {m} {x}.2)','E':f' (h{i} : OkO {m} {x}.2)','G':f' (h{i} : OkL {m} {x}.2.1)'}[k]
def post(s):
    if s in('T','O'): return 'Any'
    if s=='O+': return '(fun r : Option Token => r.isSome = true)'
    if s=='O-': return '(fun r : Option Token => r = none)'
    k,m=s.split(' ',1); m=lm(m)
    return {'N':f'(Ok {m})','P':f'(OkO {m})','P!':f'(fun r => OkO {m} r ∧ r.isSome = true)','L':f'(OkL {m})','L+':f'(fun r => OkL {m} r ∧ r ≠ [])','A':f'(ArgsOk {m})','K':f'(LabelOk {m})','I':f'(fun r : Option Token × Option Node => OkO {m} r.2)','E':f'(fun r : Option Token × Option Node => OkO {m} r.2)','G':f'(fun r : Option Token × List Node × Option Token => OkL {m} r.2.1)'}[k]
def thm(key,ins,out,proof,guard='g'):
    n,_,p=key.partition(':')
    a=AP[n]; e=a['e'].strip()
    if p: e=re.sub(r'\bp\b','.'+p,e)
    if e.startswith('(') and a['k']=='p' and e.endswith(')'): pass
    elif not e.startswith('('): e='('+e+')'
    assert len(ins)==len(a['sig']),(key,ins,a)
    b=' '.join(f'{{x{i} : {TY[t]}}}' for i,t in enumerate(a['sig']))
    h=''.join(hyp(i,s) for i,s in enumerate(ins))
    P=post(out)
    st={'p':f'{P} {e}','R':f'Res.Safe {guard} {e} {P}','M':f'BldM.Safe {guard} {e} {P}','B':f'BldR.Safe {guard} {e} {P}'}[a['k']]
    if a['k']=='p': st=f'{P} {e}'
    nm='sh_'+n+(('_'+p) if p else '')
    return f'theorem {nm} {b}{h} :\n    {st} := by\n'+'\n'.join('  '+l for l in proof.strip('\n').split('\n'))
def head(n):
    e=AP[n]['e'].strip().strip('(')
    return re.match(r'[\w.!]+',e).group(0)
base={'MlhsP':'Mlhs'}
def ctor(k):
    return {'MlhsP':'Mlhs','Send0':'Send','CSend0':'CSend','IndexAsgnT':'IndexAsgn','CasgnT':'Casgn'}.get(k,k)
def default(key,ins,out):
    n=key.split(':')[0]; a=AP[n]
    if not out.startswith('N '): return None
    ks=out[2:].split()
    if len(ks)!=1 or ks[0] in tr.D: return None
    h=head(n); c=ctor(ks[0])
    if a['k']=='p': return f'unfold {h}\nokc shaped_{c}'
    return f'unfold {h}\nsteps\nfin shaped_{c}'
