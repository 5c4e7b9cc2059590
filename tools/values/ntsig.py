import sys,re
sys.path.insert(0,'../grammar')
from kinds import *
kinds={n:set() for n in nts}
def symkinds(rhs,idx):
    t=rhs[idx-1]
    if t[0]=='act':
        s=strip_comments(t[1]); o=set()
        for r in results(s):
            if r[0]=='kind': o.add(r[1])
            else: o|=symkinds(rhs,r[1])
        return o
    if t[1] in nts: return kinds[t[1]]
    if t[1]=='error': return {'ERROR'}
    return {'Token'}
ch=True
while ch:
    ch=False
    for l,rhs,pos in rules:
        s=strip_comments(rhs[-1][1])
        for r in results(s):
            new={r[1]} if r[0]=='kind' else symkinds(rhs,r[1])
            if not new<=kinds[l]: kinds[l]|=new; ch=True
M={'TokenWithContext':'tok','DefnHead':'tok tok','DefsHead':'tok node tok tok','ExprValueDo':'node tok','Superclass':'otok onode','OptElse':'otok onode','OptEnsure':'otok onode','ExcVar':'exc','CmdBraceBlock':'tok args onode tok','DoBlock':'tok args onode tok','BraceBlock':'tok args onode tok','BraceBody':'args onode','DoBody':'args onode','LambdaBody':'tok onode tok','BeginBlock':'tok onode tok','ParenArgs':'tok nodes tok','OptParenArgs':'parens','CaseBody':'nodes otok onode','Cases':'nodes otok onode','PCaseBody':'nodes otok onode','PCases':'nodes otok onode','IfTail':'tail','PKwLabel':'label','PTopExpr':'node onode','MatchPatternWithTrailingComma':'nodes otok','NoKwRest':'tok tok','MaybeNode':'onode','NodeList':'nodes','Node':'node','Token':'tok','None':'','Bool':'','Num':'','Context':'','MaybeStrTerm':''}
S={'f_label':'tok1','f_bad_arg':'never','program':'onode','stmt_or_begin':'node','bvar':'node'}
txt=open('/verif/lean/Verif/Model/Grammar/Table.lean').read()
names=re.findall(r'^def (\S+) : NT := (\d+)',txt,re.M)
assert [int(b) for a,b in names]==list(range(len(names)))
rows=[]
for a,b in names:
    a=a.strip('«»')
    if a in S: s=S[a]
    else:
        nm=a if a in kinds else a.rstrip('_')
        ks=kinds[nm]; assert len(ks)==1,(a,ks)
        s=M[list(ks)[0]]
    f=lambda w: '.tok 0' if w=='tok' else '.tok 1' if w=='tok1' else '.'+w
    rows.append((a,'['+', '.join(f(w) for w in s.split())+']'))
out='/-- The types of the components of the value of each nonterminal. -/\ndef ntSig : List (List Ty) := [\n'
for i,(a,s) in enumerate(rows):
    out+=f"  {s}{',' if i+1<len(rows) else ']'} -- {a}\n"
open('./ntsig.lean','w').write(out)
