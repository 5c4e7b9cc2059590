import sys; sys.path.insert(0,'/root/work/sh')
from spec import *
import ab
from ab import R,E,P,nts,failing,F
def M(*names): # set by names/kinds
    s=set()
    for n in names:
        if n in D: s|=D[n][0]
        else: s|=S(n)
    return F(s)
# mask expr: string like "expr" or "ks:Args Foo" or combos "a+b" ; keep lean text
class Mk:
    def __init__(s,txt):
        s.parts=txt.split('|')
        r=set(); L=[]
        for p in s.parts:
            p=p.strip()
            if p in D: r|=D[p][0]; L.append(p+'K')
            elif p=='0': L.append('0')
            else: r|=S(p); L.append('ks ['+', '.join('.'+x for x in p.split())+']')
        s.set=F(r); s.lean=' ||| '.join(L)
        if len(L)>1 or ' ' in L[0]: s.lean='('+s.lean+')'
MONO={}
def parse(x):
    # T | O | N m | P m | P! m (never none) | L m | L+ m | A m | K m | I m | G m | E m
    x=x.strip()
    if x=='T': return ('tok',),'.tok'
    if x=='O': return ('otok',True,True),'.otok true true'
    if x=='O+': return ('otok',False,True),'.otok false true'
    if x=='O-': return ('otok',True,False),'.otok true false'
    k,m=x.split(' ',1); m=Mk(m)
    if k=='N': return ('node',m.set),f'.node {m.lean}'
    if k=='P': return ('onode',m.set,True),f'.onode {m.lean} true'
    if k=='P!': return ('onode',m.set,False),f'.onode {m.lean} false'
    if k=='L': return ('nodes',m.set,False),f'.nodes {m.lean} false'
    if k=='L+': return ('nodes',m.set,True),f'.nodes {m.lean} true'
    nm={'A':'args','K':'label','I':'tail','G':'parens','E':'exc'}[k]
    return (nm,m.set),f'.{nm} {m.lean}'
def mono(names,ins,out):
    for n in names.split(): MONO[n]=([i.strip() for i in ins.split(',')] if ins else [],out)
mono('someT','T','O+'); mono('noneT','','O-'); mono('noneN','','P 0'); mono('nilL','','L 0')
mono('endlessName kwargName','T','T'); mono('argsType','P Args','A Args')
mono('noParens','','G callArg'); mono('someParens','T,L callArg,T','G callArg'); mono('noExc','','E target'); mono('someExc','T,N target','E target')
mono('elseTail','O,P stmt','I stmt'); mono('elsifTail','T,N expr,T,P stmt,I stmt','I stmt'); mono('plainLabel','T','K strPart'); mono('quotedLabel','T,L strPart,T','K strPart')
for n,c in dict(nil='Nil',true_='True',false_='False',line='Line',file='File',self_='Self_',encoding='Encoding',forwardArg='ForwardArg',forwardedArgs='ForwardedArgs',stringInternal='Str',integer='Int',float='Float',rational='Rational',complex='Complex',lvar='Lvar',ivar='Ivar',gvar='Gvar',cvar='Cvar',backRef='BackRef',const_='Const',arg='Arg',shadowarg='Shadowarg',character='Str',symbolInternal='Sym',nthRef='NthRef',matchVar='MatchVar',kwarg='Kwarg',pairLabel='Pair').items(): mono(n,'T','N '+c)
mono('constFetch','N primary,T,T','N Const'); mono('constGlobal','T,T','N Const'); mono('optarg','T,T,N value','N Optarg'); mono('kwnilarg','T,T','N Kwnilarg')
mono('alias','T,N Sym Dsym Gvar,N Sym Dsym Gvar BackRef','N Alias'); mono('pair','N value,T,N value','N Pair'); mono('kwsplat','T,N value','N Kwsplat')
mono('multiAssign','N Mlhs,T,N rhs','N Masgn'); mono('defClass','T,N Const,O,P expr,P body,T','N Class'); mono('defSclass','T,T,N exprOrVoid,P body,T','N SClass'); mono('defModule','T,N Const,P body,T','N Module')
mono('defMethod','T,T,P Args,P body,T','N Def'); mono('defSingleton','T,N definee,T,T,P Args,P body,T','N Defs'); mono('indexAsgn','N primary,T,L callArg,T','N IndexAsgnT')
mono('ternary','N value,T,N valueOrVoid,T,N valueOrVoid','N IfTernary'); mono('case','T,P expr,L+ When,O,P stmt,T','N Case'); mono('for_','T,N target|Mlhs,T,N expr,T,P stmt,T','N For')
mono('preexe','T,T,P top,T','N Preexe'); mono('postexe','T,T,P stmt,T','N Postexe'); mono('matchPattern','N valueOrVoid,T,N pattern','N MatchPattern'); mono('matchPatternP','N valueOrVoid,T,N pattern','N MatchPatternP')
mono('ifGuard','T,N expr','N IfGuard'); mono('unlessGuard','T,N expr','N UnlessGuard'); mono('constPattern','N Const,T,N ArrayPattern FindPattern HashPattern ArrayPatternWithTail,T','N ConstPattern'); mono('pin','T,N pinned','N Pin')
mono('matchAlt','N pattern,T,N pattern','N MatchAlt'); mono('matchAs','N pattern,T,N MatchVar','N MatchAs'); mono('matchNilPattern','T,T','N MatchNilPattern'); mono('wordsCompose','T,L valueSplat,T','N Array')
mono('splat','T,P splatted','N Splat'); mono('blockPass','T,P value','N BlockPass'); mono('rangeInclusive','P value,T,P value','N Irange'); mono('rangeExclusive','P value,T,P value','N Erange')
mono('restarg','T,O','N Restarg'); mono('kwrestarg','T,O','N Kwrestarg'); mono('blockarg','T,O','N Blockarg'); mono('unaryNum','T,N numeric','N numeric'); mono('symbol','T,T','N Sym')
mono('logical:And','N exprOrVoid,T,N exprOrVoid','N And'); mono('logical:Or','N exprOrVoid,T,N exprOrVoid','N Or'); mono('binaryOp','N valueOrVoid,T,N valueOrVoid','N Send'); mono('unaryOp','T,N exprOrVoid','N Send0'); mono('matchOp','N valueOrVoid,T,N valueOrVoid','N Send MatchWithLvasgn')
mono('notOp','T,N exprOrVoid','N Send0'); mono('notParen','T,T,N exprOrVoid,T','N Send0'); mono('notEmpty','T,T,T','N Send0')
mono('ifMod unlessMod','N stmt,T,N expr','N IfMod')
for l in('While','Until'): mono('loopMod:'+l,'N stmt,T,N expr',f'N {l} {l}Post'); mono('loop_:'+l,'T,N expr,T,P stmt,T','N '+l)
mono('condition','T,N expr,T,P stmt,I stmt,T','N If'); mono('unless_','T,N expr,T,P stmt,O,P stmt,T','N If')
mono('when','T,L+ valueSplat,T,P stmt','N When'); mono('inPattern','T,N pattern,P IfGuard UnlessGuard,T,P stmt','N InPattern'); mono('caseMatch','T,N expr,L+ InPattern,O,P stmt,T','N CaseMatch')
mono('rescueClause','T,L valueSplat,E target,T,P stmt','N RescueBody'); mono('rescueModOpt','N stmt,T,N stmt','P! Rescue'); mono('rescueMod','N stmt,T,N stmt','N Rescue')
mono('beginKeyword','T,P body,T','N KwBegin'); mono('bodystmtElse','P stmt,L RescueBody,T,P stmt,O,P stmt','P body'); mono('bodystmt','P stmt,L RescueBody,O,P stmt','P body')
mono('singletonExpr','N exprOrVoid','N definee'); mono('constOpAssignable','N Const','N CasgnT'); mono('assign','N target,T,N rhs','N assigned|Send CSend')
mono('opAssign','N LvasgnT IvasgnT GvasgnT CvasgnT CasgnT Send0 CSend0 Index BackRef NthRef,T,N rhs','N opAsgn')
mono('defEndless','T,T,P Args,T,P! body','N Def'); mono('defEndlessSingleton','T,N definee,T,T,P Args,T,P! body','N Defs'); mono('undefMethod','T,L+ sym','N Undef'); mono('kwoptarg','T,N value','N Kwoptarg')
mono('lambda','T,A Args,T,P body,T','N blocks'); mono('attrAsgn','N receiver,T,T','N Send0 CSend0'); mono('attrAsgnMasgn','N receiver,T,T','N Send0'); mono('index','N primary,T,L callArg,T','N Index')
mono('mlhsInner','T,N Mlhs,T','N Mlhs'); mono('strings','L+ strings','N strings'); mono('string1','T,L strPart,T','N strings'); mono('xstring','T,L strPart,T','N Xstr XHeredoc'); mono('regexp','T,L strPart,T','N Regexp')
mono('word','L+ strPart','N Str Dstr'); mono('symbolsCompose','T,L Str Dstr Sym,T','N Array'); mono('symbolCompose','T,L strPart,T','N sym'); mono('pairKeyword','T,N pairValue','N Pair'); mono('pairQuoted','T,L strPart,T,N pairValue','N Pair')
mono('matchRest','T,O','N MatchRest'); mono('matchPair','K strPart,N pairValue','N Pair'); mono('matchLabel','K strPart','N MatchVar'); mono('constPatternEmpty','N Const,T,T','N ConstPattern')
mono('callDotOpt','N receiver,T,T,G callArg','N sends')
for p in('','Paren'):
    sg=lambda l: ('T,'+l if not p else 'T,T,'+l+',T')
    mono(f'keyword{p}:Yield',sg('L callArg'),'N Yield'); mono(f'keyword{p}:Super',sg('L callArg'),'N Super'); mono(f'keyword{p}:Zsuper',sg('L 0'),'N ZSuper'); mono(f'keyword{p}:Redo',sg('L 0'),'N Redo'); mono(f'keyword{p}:Retry',sg('L 0'),'N Retry'); mono(f'keyword{p}:Defined',sg('L+ exprOrVoid'),'N Defined')
def le(a,b):
    if a==('never',): return True
    if a[0]!=b[0]: return False
    k=a[0]
    if k=='tok': return True
    if k=='otok': return (not a[1] or b[1]) and (not a[2] or b[2])
    if k=='onode': return a[1]<=b[1] and (not a[2] or b[2])
    if k=='nodes': return a[1]<=b[1] and (a[2] or not b[2])
    return a[1]<=b[1]
def send(m,cs):
    z=F({'Send0'}|({'CSend0'} if cs else set())); f=F({'Send'}|({'CSend'} if cs else set()))
    return ('node', z if not m else z|f)
def poly(f,p,x):
    if f=='someN': return ('onode',x[0][1],False)
    if f=='single': return ('nodes',x[0][1],True)
    if f=='append': return ('nodes',x[0][1]|x[1][1],x[0][2] or x[1][2])
    if f=='checked': return ('node',x[0][1]-D['void'][0])
    coll={'array':('valueSplat','Array'),'hashPattern':(S('Pair MatchVar MatchRest MatchNilPattern'),'HashPattern'),'findPattern':('patternItem','FindPattern'),'associate':('pairs','Hash')}
    if f in coll:
        m,k=coll[f]; m=D[m][0] if isinstance(m,str) else m
        a,l,b=x
        if not l[1]<=m: return None
        if f=='findPattern': return ('node',F({k})) if l[2] else None
        return ('node',F({k})) if l[2] or not a[1] else None
    if f=='multiLhs':
        a,l,b=x
        if not l[2]: return None
        if l[1]<=D['destr'][0]: return ('node',F({'MlhsP'}))
        if l[1]<=D['mlhsItem'][0]: return ('node',F({'Mlhs'}))
        return None
    if f=='args':
        a,l,b=x
        return ('onode',F({'Args'}),a[1] and not l[2] and b[1]) if l[1]<=D['param'][0] else None
    if f=='arrayPattern':
        a,l,t,b=x
        return ('node',F({'ArrayPattern'}|({'ArrayPatternWithTail'} if t[2] else set()))) if l[1]<=D['patternItem'][0] and (l[2] or not a[1]) else None
    if f=='compstmt':
        return ('onode',x[0][1]|{'Begin'},not x[0][2]) if x[0][1]<=D['begins'][0] else None
    if f=='begin':
        m=x[1][1]; o=m-{'Mlhs','MlhsP'}
        if not o<=D['begins'][0]: return None
        return ('node',(m&{'Mlhs','MlhsP'})|(F({'Begin'}) if o or x[1][2] else F()))
    if f=='accessible': return ('node',x[0][1]|{'Send0'}) if 'Lvar' in x[0][1] else x[0]
    if f=='assignable':
        if x[0][1]<={'MatchVar'}: return ('node',F({'MatchVar'}))
        if x[0][1]<=S('Cvar Ivar Gvar Const Lvar')|D['keywordVar'][0]|S('BackRef NthRef'): return ('node',F(S('LvasgnT IvasgnT GvasgnT CvasgnT CasgnT')))
        return None
    if f=='procargs':
        a,b=x
        if b[2] or not a[1]: return ('nodes',a[1]|b[1],a[2] or b[2])
        if a[1]<={'Arg','MlhsP'}: return ('nodes',a[1]|b[1]|{'Procarg0'},a[2] or b[2])
        return None
    if f in('callDot','callFn','callFnParen','callDotParen','callParen'):
        rec=f not in('callFn','callFnParen')
        l={'callDot':3,'callFn':1,'callFnParen':2,'callDotParen':4,'callParen':3}[f]
        if rec and not x[0][1]<=D['receiver'][0]: return None
        if not x[l][1]<=D['callArg'][0]: return None
        return send(x[l][1],rec)
    if f=='block':
        c,_,a,b,_=x
        if not(a[1]<={'Args'} and b[1]<=D['body'][0]): return None
        if c[1]<=D['callee'][0]: return ('node',F(D['blocks'][0]))
        if c[1]<=D['callee'][0]|S('Yield ReturnC BreakC NextC'): return ('node',F(D['blocks'][0]|S('Return Break Next')))
        return None
    if f in('keyword','keywordParen'):
        l=x[1 if f=='keyword' else 2]
        if not l[1]<=D['jumpArg'][0]: return None
        return ('node',F({p+'C'})) if l[2] and l[1]<=D['jumpCallee'][0] else ('node',F({p,p+'C'}))
    assert 0,f
cur=None; errs=[]
def ap(f,p,x):
    k=f+(':'+p if p else '')
    if k in MONO:
        ins,out=MONO[k]
        assert len(ins)==len(x),(k,x)
        for i,a in zip(ins,x):
            if not le(a,parse(i)[0]): errs.append((cur,k,i,sorted(a[1]-parse(i)[0][1]) if len(a)>1 and a[0]!='otok' else a, a[2:]))
        return parse(out)[0]
    r=poly(f,p,x)
    if r is None: errs.append((cur,k,x)); raise ab.Bot
    return r
val={}
OV={422:(0,lambda v:(('node',v[0][1]&ab.PLAINC),))}
def join(a,b): return ab.join(a,b)
def run():
    global cur
    while True:
        snap=dict(val); errs.clear()
        for i,(l,rhs,ln,k) in enumerate(R):
            if k not in E or failing(rhs): continue
            cur=(i,l,ln)
            vs=[]
            for t in rhs:
                if t[0]=='act': vs.append(())
                elif t[1] in nts: vs.append(val.get(t[1]))
                else: vs.append((('tok',),))
            if any(v is None for v in vs): continue
            if i in OV: j,g=OV[i]; vs[j]=g(vs[j])
            def ev(e):
                if e[0]=='fld': return vs[e[1]-1][e[2]]
                return ap(e[1],e[2],[ev(a) for a in e[3]])
            try:
                new=vs[P[i][1]-1] if P[i][0]=='copy' else tuple(ev(e) for e in P[i][1])
            except ab.Bot: continue
            old=val.get(l)
            val[l]=new if old is None else tuple(join(a,b) for a,b in zip(old,new))
        if snap==val: break
if __name__=='__main__':
    run()
    for e in errs: print(str(e)[:400])
    for n in nts: 
        if n not in val: print('BOT',n)
    print({k:(sorted(v) if isinstance(v,(set,frozenset)) else v) for k,v in [(n,val[n][0][1] if val[n] and len(val[n][0])>1 else 0) for n in ('program','stmt','expr','command','primary')]})
