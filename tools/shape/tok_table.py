import sys; sys.path.insert(0,'/root/work/calm')
import ta
ALL=['text','name','ref','label','quote','opts']
DELIM=set('tSTRING_CONTENT tCHAR tSTRING_BEG tXSTRING_BEG tREGEXP_BEG tWORDS_BEG tQWORDS_BEG tSYMBOLS_BEG tQSYMBOLS_BEG tSYMBEG tSTRING_DBEG tSTRING_DEND tSTRING_DVAR tSTRING_END tLABEL_END'.split())
def fl(t):
    s=set()
    if t not in DELIM: s.add('text')
    if t in('tIDENTIFIER','tLABEL'): s.add('name')
    if t=='tNTH_REF': s.add('ref')
    if t=='tLABEL': s.add('label')
    if t=='tLABEL_END': s.add('quote')
    if t=='tREGEXP_END': s.add('opts')
    return s
def meet(S):
    r=set(ALL)
    for t in S: r&=fl(t)
    return r
def rf(S):
    r=meet(S)
    if r==set(ALL): return '.all'
    if not r: return '.no'
    if r=={'text'}: return '.word'
    if r=={'text','name'}: return '.ident'
    if r=={'text','name','label'}: return '.key'
    if r=={'quote'}: return '.end'
    if r=={'text','ref'}: return '.dollar'
    if r=={'text','opts'}: return '.slash'
    assert 0,r
def rend(a):
    if a[0]=='other': return '.other'
    return f'.{a[0]} '+' '.join(rf(x) for x in a[1:])
L=[]
for n in ta.nts:
    v=ta.val.get(n)
    L.append(f'  -- {n}\n  '+('[.never]' if v is None else '['+', '.join(rend(a) for a in v)+']'))
needs={}
RN={'text':'word','text label':'labelled','text ascii':'dollar','text named':'ident','text opts':'slash','label':'colon','text named label':'key','quote':'end','':'no','named':'named'}
def rn(a):
    if a is None: return '.other'
    return f'.{a[0]} '+' '.join('.'+RN[x] for x in a[1:])
by={}
for f,a in ta.NEED.items(): by.setdefault('['+', '.join(rn(x) for x in a)+']',[]).append(f)
N=[]
for k,v in by.items(): N.append('  | '+' | '.join('.'+x for x in v)+' => '+k)
N.append('  | _ => []')
src=open('/root/work/calm/table.lean').read().replace('@@TABLE@@',',\n'.join(L)).replace('@@NEEDS@@','\n'.join(N))
open('/verif/lean/Verif/Lemmas/TokTable.lean','w').write(src)
