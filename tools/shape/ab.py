import sys,re
sys.path.insert(0,'/root/work/sb')
sys.argv=['x']
from tab import *
import collections
C=collections.defaultdict(set)   # (ctor,field)->kinds
NE=collections.defaultdict(lambda:True) # (ctor,field) list always nonempty / option always some
bad=[]
PARAM={'Arg','Optarg','Restarg','Kwarg','Kwoptarg','Kwrestarg','Kwnilarg','Blockarg','Shadowarg','ForwardArg','MlhsP','Procarg0'}
# which params does checkDuplicateArgs accept?
# abs values: ('tok',) ('otok',none) ('node',S) ('onode',S,none) ('nodes',S,ne) ('args',S) ('label',S) ('tail',S) ('parens',S) ('exc',S)
def join(a,b):
    if a is None: return b
    if b is None: return a
    assert a[0]==b[0],(a,b)
    k=a[0]
    if k=='tok': return a
    if k=='otok': return (k,a[1] or b[1],a[2] or b[2])
    if k in('node','args','label','tail','parens','exc'): return (k,a[1]|b[1])
    if k=='onode': return (k,a[1]|b[1],a[2] or b[2])
    if k=='nodes': return (k,a[1]|b[1],a[2] and b[2])
F=frozenset
def N(*s): return ('node',F(s))
cur=None
def put(ctor,**kw):
    for f,v in kw.items():
        k=v[0]
        if k=='node': C[ctor,f]|=v[1]
        elif k in('onode','exc','tail','args'): 
            C[ctor,f]|=v[1]
            if k!='onode' or v[2]: NE[ctor,f]=False
        elif k=='nodes':
            C[ctor,f]|=v[1]
            if not v[2]: NE[ctor,f]=False
        elif k=='parens':
            C[ctor,f]|=v[1]; NE[ctor,f]=False
        elif k=='set': C[ctor,f]|=v[1]
        else: assert 0,v
def need(c,msg):
    if not c: bad.append((cur,msg))
def nn(*s): return ('set',F(s))
CC={'Irange':'IFlipFlop','Erange':'EFlipFlop','Regexp':'MatchCurrentLine'}
def cc(v):
    S=set()
    for k in v[1]:
        S.add(CC.get(k,k))
    if 'Irange' in v[1] or 'Begin' in v[1] or 1: pass
    return ('node',F(S))
# deep effects of checkCondition: And/Or/Irange children get cc'd as well
def ccdeep():
    for c,f in [('And','lhs'),('And','rhs'),('Or','lhs'),('Or','rhs'),('Begin','statements')]:
        C[c,f]|={CC.get(k,k) for k in C[c,f]}
    for a,b in [('Irange','IFlipFlop'),('Erange','EFlipFlop')]:
        for f in ('left','right'):
            C[b,f]|={CC.get(k,k) for k in C[a,f]}; NE[b,f]=NE[a,f]
    C['MatchCurrentLine','re']|={'Regexp'}
def sub(v,S,msg):
    need(v[1]<=S,msg+': '+','.join(sorted(v[1]-S)))
def coll(b,l,e,msg):
    need(l[2] or not b[1] or not e[1],msg+' collection of nothing')
def kwargs(l):
    # rewrite_hash_args_to_kwargs
    S=set(l[1])
    if 'Hash' in S:
        S.add('Kwargs'); C['Kwargs','pairs']|=C['Hash','pairs']
    return ('nodes',F(S),l[2])
def tok0(x): return x==('tok',)
ST={'Str','Begin','Gvar','BackRef','NthRef','Ivar','Cvar'}
CALLY={'Send','Send0','CSend','CSend0','Index','Super','ZSuper','Yield'}
def block(call,a,body):
    OKC={'Send','Send0','CSend','CSend0','Index','Super','ZSuper','Lambda','ReturnC','NextC','BreakC','Yield'}
    sub(call,OKC,'block callee')
    out=set()
    pl=call[1]&{'Send','Send0','CSend','CSend0','Index','Super','ZSuper','Lambda'}
    S=set()
    if pl:
        S|=pl; out|={'Block','Numblock'}
    for k in call[1]&{'ReturnC','NextC','BreakC'}:
        S|=CALLY; out.add(k[:-1]); C[k[:-1],'args']|={'Block','Numblock'}
    put('Block',call=('set',F(S)),args=('args',a[1]),body=body)
    put('Numblock',call=('set',F(S)),body=body); C['Numblock','body']|={'Nil'}
    return ('node',F(out))
def beginBody(b,r,els,ens):
    # b onode, r nodes, els None/onode, ens None/(onode) possibly absent flag
    S=set(b[1]) ; none=b[2]
    if r[1]:
        put('Rescue',body=b,rescue_bodies=('nodes',r[1],True),else_=els or ('onode',F(),True))
        S|={'Rescue'}
        if r[2]: S={'Rescue'}; none=False
    if ens:
        mayb,body=ens
        if mayb!='never':
            put('Ensure',body=('onode',F(S),none),ensure=body)
            S=S|{'Ensure'}
            if mayb=='always': S={'Ensure'}; none=False
    return ('onode',F(S),none)
def cond(c,t,f):
    put('If',cond=cc(c),if_true=t,if_false=f); return N('If')
def callm(recv,args,csend):
    a=kwargs(args)
    o=set()
    for k in ['Send']+(['CSend'] if csend else []):
        put(k,recv=recv,args=a)
        if a[1]: o.add(k)
        if not a[2]: o.add(k+'0')
    return ('node',F(o))
def ap(f,p,xs):
    g=globals().get('f_'+f)
    if g: return g(p,xs) if p else g(xs)
    raise Exception(f)
def deff(names,ctor,spec):
    # spec: dict field->arg index
    for n in names.split():
        def h(xs,spec=spec,ctor=ctor):
            put(ctor,**{k:xs[i] for k,i in spec.items()})
            return N(ctor)
        globals()['f_'+n]=h
def f_someT(x): return ('otok',False,True)
def f_someN(x): return ('onode',x[0][1],False)
def f_noneT(x): return ('otok',True,False)
def f_noneN(x): return ('onode',F(),True)
def f_nilL(x): return ('nodes',F(),False)
def f_single(x): return ('nodes',x[0][1],True)
def f_append(x): return ('nodes',x[0][1]|x[1][1],x[0][2] or x[1][2])
VOID={'Return','ReturnC','Break','BreakC','Next','NextC','Redo','Retry'}
def f_checked(x): return ('node',x[0][1]-VOID)
def f_endlessName(x): return ('tok',)
def f_kwargName(x): return ('tok',)
LITS={'Int','Float','Rational','Complex','Str','Dstr','Sym','Dsym','Heredoc','XHeredoc','Regexp','Array','Hash'}
def f_singletonExpr(x): return ('node',x[0][1]-LITS-VOID)
def f_argsType(x): return ('args',x[0][1])
def f_noParens(x): return ('parens',F())
def f_someParens(x): return ('parens',x[1][1])
def f_noExc(x): return ('exc',F())
def f_someExc(x): return ('exc',x[1][1])
def f_elseTail(x): return ('tail',x[1][1])
def f_elsifTail(x): cond(x[1],x[3],x[4]); return ('tail',F({'If'}))
def f_plainLabel(x): return ('label',F())
def f_quotedLabel(x): return ('label',x[1][1])
for n,c in dict(nil='Nil',true_='True',false_='False',line='Line',file='File',self_='Self_',encoding='Encoding',forwardArg='ForwardArg',forwardedArgs='ForwardedArgs',stringInternal='Str',integer='Int',float='Float',rational='Rational',complex='Complex',lvar='Lvar',ivar='Ivar',gvar='Gvar',cvar='Cvar',backRef='BackRef',const_='Const',constGlobal='Const',arg='Arg',shadowarg='Shadowarg',kwnilarg='Kwnilarg',matchNilPattern='MatchNilPattern',character='Str',restarg='Restarg',kwrestarg='Kwrestarg',blockarg='Blockarg',symbol='Sym',symbolInternal='Sym',nthRef='NthRef',matchVar='MatchVar',kwarg='Kwarg').items(): deff(n,c,{})
C['Const','scope']|={'Cbase'}
def f_const_(x): NE['Const','scope']=False; return N('Const')
deff('constFetch','Const',dict(scope=0)); deff('optarg','Optarg',dict(default=2)); deff('alias','Alias',dict(to=1,from_=2)); deff('pair','Pair',dict(key=0,value=2)); deff('kwsplat','Kwsplat',dict(value=1))
deff('multiAssign','Masgn',dict(lhs=0,rhs=2)); deff('defClass','Class',dict(name=1,superclass=3,body=4)); deff('defSclass','SClass',dict(expr=2,body=3)); deff('defModule','Module',dict(name=1,body=2))
deff('defMethod','Def',dict(args=2,body=3)); deff('defSingleton','Defs',dict(definee=1,args=4,body=5))
def f_indexAsgn(x): put('IndexAsgn',recv=x[0],indexes=x[2]); return N('IndexAsgnT')
deff('ternary','IfTernary',dict(cond=0,if_true=2,if_false=4)); deff('case','Case',dict(expr=1,when_bodies=2,else_body=4)); deff('for_','For',dict(iterator=1,iteratee=3,body=5)); deff('preexe','Preexe',dict(body=2)); deff('postexe','Postexe',dict(body=2))
deff('matchPattern','MatchPattern',dict(value=0,pattern=2)); deff('matchPatternP','MatchPatternP',dict(value=0,pattern=2)); deff('ifGuard','IfGuard',dict(cond=1)); deff('unlessGuard','UnlessGuard',dict(cond=1))
deff('constPattern','ConstPattern',dict(const_=0,pattern=2)); deff('pin','Pin',dict(var=1)); deff('matchAlt','MatchAlt',dict(lhs=0,rhs=2)); deff('matchAs','MatchAs',dict(value=0,as_=2))
deff('wordsCompose','Array',dict(elements=1)); deff('splat','Splat',dict(value=1)); deff('blockPass','BlockPass',dict(value=1)); deff('rangeInclusive','Irange',dict(left=0,right=2)); deff('rangeExclusive','Erange',dict(left=0,right=2))
def f_unaryNum(x): sub(x[1],{'Int','Float','Rational','Complex'},'unaryNum'); return x[1]
def colldef(n,c,f):
    def h(x):
        coll(x[0],x[1],x[2],n); put(c,**{f:x[1]}); return N(c)
    globals()['f_'+n]=h
colldef('array','Array','elements'); colldef('hashPattern','HashPattern','elements'); colldef('findPattern','FindPattern','elements'); colldef('associate','Hash','pairs')
def mlhs(l):
    if l[1]<=PARAM:
        put('MlhsP',items=l); return N('MlhsP')
    put('Mlhs',items=l)
    return N('Mlhs') if not (l[1]&PARAM) and l[2] else N('Mlhs','MlhsP')
def f_multiLhs(x): coll(x[0],x[1],x[2],'mlhs'); return mlhs(x[1])
def f_args(x):
    sub(x[1],PARAM,'args'); put('Args',args=x[1])
    none=x[0][1] and not x[1][2] and x[2][1]
    # model: none iff all three absent; otherwise collection has something
    return ('onode',F({'Args'}),none)
def f_arrayPattern(x):
    coll(x[0],x[1],x[3],'arrayPattern')
    put('ArrayPattern',elements=x[1])
    o={'ArrayPattern'}
    if x[2][2]:
        put('ArrayPatternWithTail',elements=x[1]); o.add('ArrayPatternWithTail')
    return ('node',F(o))
def vx(v): return ('node',v[1]-VOID)
def f_logical(p,x): put(p,lhs=vx(x[0]),rhs=x[2]); return N(p)
def f_binaryOp(x): put('Send',recv=vx(x[0]),args=vx(x[2])); return N('Send')
def f_matchOp(x): put('Send',recv=vx(x[0]),args=vx(x[2])); put('MatchWithLvasgn',re=nn('Regexp'),value=vx(x[2])); return N('Send','MatchWithLvasgn')
def f_unaryOp(x): put('Send',recv=vx(x[1])); return N('Send0')
def f_notOp(x): put('Send',recv=cc(vx(x[1]))); return N('Send0')
def f_notParen(x): put('Send',recv=cc(vx(x[2]))); return N('Send0')
def f_notEmpty(x): C['Send','recv'].add('Begin'); NE['Begin','statements']=False; return N('Send0')
def f_ifMod(x): put('IfMod',cond=cc(x[2]),if_true=x[0],if_false=('onode',F(),True)); return N('IfMod')
def f_unlessMod(x): put('IfMod',cond=cc(x[2]),if_false=x[0],if_true=('onode',F(),True)); return N('IfMod')
def f_loopMod(p,x):
    put(p,cond=cc(x[2]),body=('node',x[0][1]-{'KwBegin'}))
    o={p}
    if 'KwBegin' in x[0][1]: put(p+'Post',cond=cc(x[2]),body=nn('KwBegin')); o.add(p+'Post')
    return ('node',F(o))
def f_loop_(p,x): put(p,cond=cc(x[1]),body=x[3]); return N(p)
def f_condition(x): return cond(x[1],x[3],x[4])
def f_unless_(x): return cond(x[1],x[5],x[3])
deff('when','When',dict(patterns=1,body=3)); deff('inPattern','InPattern',dict(pattern=1,guard=2,body=4))
def f_caseMatch(x): put('CaseMatch',expr=x[1],in_bodies=x[2],else_body=x[4]); C['CaseMatch','else_body']|={'EmptyElse'}; return N('CaseMatch')
def f_rescueClause(x):
    if x[1][1]: put('Array',elements=x[1])
    put('RescueBody',exc_list=('onode',F({'Array'}),True),exc_var=x[2],body=x[4]); return N('RescueBody')
def f_rescueModOpt(x):
    put('RescueBody',exc_list=('onode',F(),True),exc_var=('onode',F(),True),body=x[2])
    put('Rescue',body=x[0],rescue_bodies=nn('RescueBody'),else_=('onode',F(),True))
    return ('onode',F({'Rescue'}),False)
def f_rescueMod(x): return ('node',f_rescueModOpt(x)[1])
def f_compstmt(x):
    S=set(x[0][1])
    put('Begin',statements=x[0]); S.add('Begin') if S else 0
    return ('onode',F(S),not x[0][2])
def f_begin(x):
    v=x[1]
    S=(v[1]&{'Mlhs','MlhsP'})|({'Begin'} if v[2] or v[1]-{'Mlhs','MlhsP'} else set())
    put('Begin',statements=('nodes',v[1]-{'Mlhs','MlhsP'},not v[2]))
    return ('node',F(S))
def f_beginKeyword(x):
    v=x[1]
    put('KwBegin',statements=('nodes',v[1]-{'Begin'},False))
    if 'Begin' in v[1]: C['KwBegin','statements']|=C['Begin','statements']
    return N('KwBegin')
def f_bodystmtElse(x):
    b,r,_,els,et,eb=x
    return beginBody(b,('nodes',r[1],True),els,('maybe',eb)) if r[1] else ('onode',F(),True)
def f_bodystmt(x):
    b,r,et,eb=x
    return beginBody(b,r,None,('maybe' if et[1] else 'always',eb))
def f_accessible(x):
    S=set(x[0][1])
    if 'Lvar' in S: S.add('Send0'); NE['Send','recv']=False
    return ('node',F(S))
ASG={'Cvar':'CvasgnT','Ivar':'IvasgnT','Gvar':'GvasgnT','Const':'CasgnT','Lvar':'LvasgnT','MatchVar':'MatchVar'}
VAR=set(ASG)|{'Self_','Nil','True','False','File','Line','Encoding','BackRef','NthRef'}
def f_assignable(x):
    sub(x[0],VAR,'assignable')
    C['Casgn','scope']|=C['Const','scope'] if 'Const' in x[0][1] else set()
    return ('node',F({ASG[k] for k in x[0][1] if k in ASG}))
def f_constOpAssignable(x):
    sub(x[0],{'Const'},'constOpAssignable'); C['Casgn','scope']|=C['Const','scope']; return N('CasgnT')
TGT={'CvasgnT':'Cvasgn','IvasgnT':'Ivasgn','GvasgnT':'Gvasgn','LvasgnT':'Lvasgn','CasgnT':'Casgn','IndexAsgnT':'IndexAsgn','Send0':'Send','CSend0':'CSend'}
def f_assign(x):
    sub(x[0],set(TGT),'assign')
    o=set()
    for k in x[0][1]&set(TGT):
        c=TGT[k]; put(c,**{'args' if 'Send' in c else 'value':x[2]}); o.add(c)
    return ('node',F(o))
OPT={'GvasgnT','IvasgnT','LvasgnT','CvasgnT','CasgnT','Send0','CSend0','Send','CSend','Index','BackRef','NthRef'}
def f_opAssign(x):
    sub(x[0],OPT,'opAssign')
    S=set(x[0][1])-{'BackRef','NthRef'}
    if 'Index' in S: 
        S.remove('Index'); S.add('IndexAsgnT'); C['IndexAsgn','indexes']|=C['Index','indexes']; C['IndexAsgn','recv']|=C['Index','recv']
    for c in('AndAsgn','OrAsgn','OpAsgn'): put(c,recv=('set',F(S)),value=x[2])
    return N('AndAsgn','OrAsgn','OpAsgn')
def f_defEndless(x): need(not x[4][2],'endless body'); put('Def',args=x[2],body=x[4]); return N('Def')
def f_defEndlessSingleton(x): need(not x[6][2],'endless body'); put('Defs',definee=x[1],args=x[4],body=x[6]); return N('Defs')
deff('undefMethod','Undef',dict(names=1)); deff('kwoptarg','Kwoptarg',dict(default=1))
def f_procargs(x):
    xs,t=x
    S=set(xs[1]|t[1])
    if xs[1] and not t[2]:
        sub(xs,{'Arg','MlhsP'},'procarg0')
        S.add('Procarg0'); C['Procarg0','args']|=({'Arg'} if 'Arg' in xs[1] else set()) | (C['MlhsP','items'] if 'MlhsP' in xs[1] else set())
    return ('nodes',F(S),xs[2] or t[2])
def f_callDot(x): return callm(x[0],x[3],True)
def f_callFn(x): NE['Send','recv']=False; return callm(('onode',F(),True),x[1],False)
def f_callFnParen(x): NE['Send','recv']=False; return callm(('onode',F(),True),x[2],False)
def f_callDotParen(x): return callm(x[0],x[4],True)
def f_callDotOpt(x): return callm(x[0],('nodes',x[3][1],False),True)
def f_callParen(x): return callm(x[0],x[3],True)
def f_block(x): return block(x[0],x[2],x[3])
def f_lambda(x): return block(N('Lambda'),x[1],x[3])
def f_attrAsgn(x): put('Send',recv=x[0]); put('CSend',recv=x[0]); return N('Send0','CSend0')
def f_attrAsgnMasgn(x): put('Send',recv=x[0]); return N('Send0')
def f_index(x): put('Index',recv=x[0],indexes=kwargs(x[2])); return N('Index')
def kw(p,l):
    if p in('Yield','Super'): l=kwargs(l)
    if p=='Yield': l=('nodes',l[1]-set(),l[2])
    if p=='Zsuper': return N('ZSuper')
    if p in('Redo','Retry'): return N(p)
    if p=='Defined': need(l[2],'defined'); put('Defined',value=('set',l[1])); return N('Defined')
    put(p,args=l)
    if p in('Return','Break','Next'):
        return N(p+'C') if l[1]<=CALLY and l[2] else N(p,p+'C')
    return N(p)
def f_keyword(p,x): return kw(p,x[1])
def f_keywordParen(p,x): return kw(p,x[2])
def f_mlhsInner(x):
    sub(x[1],{'Mlhs','MlhsP'},'mlhsInner'); return x[1]
def f_strings(x):
    l=x[0]; need(l[2],'strings')
    put('Dstr',parts=l)
    return ('node',F({'Dstr'}|(l[1]&{'Str','Dstr','Heredoc'})))
def f_string1(x):
    l=x[1]; sub(l,ST,'string1')
    put('Heredoc',parts=l); put('Dstr',parts=l)
    return N('Heredoc','Str','Dstr')
def f_xstring(x): sub(x[1],ST,'xstring'); put('XHeredoc',parts=x[1]); put('Xstr',parts=x[1]); return N('Xstr','XHeredoc')
def f_regexp(x): put('Regexp',parts=x[1],options=('onode',F({'RegOpt'}),True)); return N('Regexp')
def f_word(x):
    l=x[0]; need(l[2],'word'); put('Dstr',parts=l); return ('node',F({'Dstr'}|(l[1]&{'Str','Dstr'})))
def f_symbolsCompose(x):
    S={ {'Str':'Sym','Dstr':'Dsym'}.get(k,k) for k in x[1][1]}
    if 'Dstr' in x[1][1]: C['Dsym','parts']|=C['Dstr','parts']
    put('Array',elements=('nodes',F(S),x[1][2])); return N('Array')
def symc(l):
    put('Dsym',parts=l); return {'Dsym'}|({'Sym'} if 'Str' in l[1] else set())
def f_symbolCompose(x): return ('node',F(symc(x[1])))
def f_pairKeyword(x): put('Pair',key=nn('Sym'),value=x[1]); return N('Pair')
def f_pairLabel(x): put('Pair',key=nn('Sym'),value=nn('Const','Lvar','Send0')); return N('Pair')
def f_pairQuoted(x): put('Pair',key=('set',F(symc(x[1]))),value=x[3]); return N('Pair')
def f_matchRest(x): put('MatchRest',name=('onode',F({'MatchVar'}),True)); return N('MatchRest')
def f_matchPair(x): put('Pair',key=('set',F({'Sym'}|symc(('nodes',x[0][1],False)))),value=x[1]); return N('Pair')
def f_matchLabel(x): return N('MatchVar')
def f_constPatternEmpty(x): put('ArrayPattern',elements=('nodes',F(),False)); put('ConstPattern',const_=x[0],pattern=nn('ArrayPattern')); return N('ConstPattern')

# expression parser
def pex(e):
    pos=0
    def ex():
        nonlocal pos
        m=re.compile(r'\$(\d+)(?:\.(\d+))?').match(e,pos)
        if m: pos=m.end(); return ('fld',int(m.group(1)),int(m.group(2) or 0))
        m=re.compile(r'(\w+)(?::(\w+))?\(').match(e,pos)
        pos=m.end(); args=[]
        while e[pos]!=')':
            args.append(ex())
            if e[pos]==',': pos+=1
        pos+=1
        return ('call',m.group(1),m.group(2),args)
    return ex()
P=[]
for l,rhs,ln,k in R:
    es=E.get(k,[])
    if len(es)==1 and es[0][0]=='=': P.append(('copy',int(es[0][1:])))
    else: P.append(('mk',[pex(e) for e in es]))
failing=lambda rhs:any(t[0]=='act' and 'yyerror' in strip_comments(t[1]) and not results(strip_comments(t[1])) for t in rhs)
val={}
class Bot(Exception): pass
def ev(e,vs):
    if e[0]=='fld':
        v=vs[e[1]-1]
        if v is None: raise Bot
        return v[e[2]]
    args=[ev(a,vs) for a in e[3]]
    return ap(e[1],e[2],args)
def slotv(rhs):
    o=[]
    for t in rhs:
        if t[0]=='act': o.append(())
        elif t[1] in nts: o.append(val.get(t[1]))
        else: o.append((('tok',),))
    return o
PLAINC=F({'Send','Send0','CSend','CSend0','Super','Yield','ReturnC','BreakC','NextC'})
OVERRIDE={422:(0,lambda v:(('node',v[0][1]&PLAINC),))}
def run(skipfail=True):
    global cur
    it=0
    while True:
        it+=1
        snap=(dict(val),{k:set(v) for k,v in C.items()},dict(NE))
        bad.clear()
        for i,(l,rhs,ln,k) in enumerate(R):
            if k not in E or failing(rhs): continue
            cur=(i,l,ln,' '.join(t[1] for t in rhs if t[0]!='act'))
            vs=slotv(rhs)
            if any(v is None for v in vs): continue
            if i in OVERRIDE: 
                j,g=OVERRIDE[i]; vs[j]=g(vs[j])
            try:
                if P[i][0]=='copy': new=vs[P[i][1]-1]
                else: new=tuple(ev(e,vs) for e in P[i][1])
            except Bot: continue
            old=val.get(l)
            val[l]=new if old is None else tuple(join(a,b) for a,b in zip(old,new))
        ccdeep()
        if snap==(dict(val),{k:set(v) for k,v in C.items()},dict(NE)): break
    return it
if __name__=='__main__':
    print(run())
    print('BAD'); 
    for b in bad: print(b)
    for n in nts: print(n,[ (a[0],','.join(sorted(a[1])) if isinstance(a[1],frozenset) else a[1],*a[2:]) if len(a)>1 else a for a in val.get(n,[])] if n in val else 'BOT')
    print()
    for (c,f) in sorted(C): print(c,f,'NE' if NE[c,f] else '',','.join(sorted(C[c,f])))
