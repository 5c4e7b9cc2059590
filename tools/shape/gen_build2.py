from gen_fn import *
from proofs import PR
HEAD=open('/root/work/sh/head2.lean').read()
out=[HEAD]
# order: pairKeyword before pairLabel etc
keys=list(tr.MONO)
first=['pairKeyword','pairQuoted']
keys=first+[k for k in keys if k not in first]
out1=[]
for k in keys:
    ins,o=tr.MONO[k]
    pr=PR.get(k) or default(k,ins,o)
    g='g'
    if k in('string1','xstring'): g='(indent = 0 ∨ startsHeredoc x0.tokenValue = true)'
    out1.append(thm(k,ins,o,pr,g))
half=len(out1)//2
out+=out1
out.append('\nend Verif\n')
open('/verif/lean/Verif/Lemmas/ShapeBuild3.lean','w').write('\n'.join(out))
