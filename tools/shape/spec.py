import re,sys
sys.path.insert(0,'/root/work/sh')
txt=open('/verif/lean/Verif/Model/Ast.lean').read()
body=txt[txt.index('inductive Node where'):txt.index('deriving Repr')]
CT=[]
for m in re.finditer(r'^  \| (\w+)(.*)$',body,re.M):
    CT.append((m.group(1),[(a,t.strip()) for a,t in re.findall(r'\((\w+) : ([^)]*)\)',m.group(2))]))
REF=['MlhsP','Send0','CSend0','LvasgnT','IvasgnT','GvasgnT','CvasgnT','CasgnT','IndexAsgnT','ReturnC','BreakC','NextC']
KS=[c for c,_ in CT]+REF
def S(s): 
    r=set(s.split()); assert r<=set(KS),r-set(KS); return r
D={}  # name -> (set, lean expr, doc)
order=[]
def df(name,st,lean,doc): D[name]=(st,lean,doc); order.append(name)
def lst(name,s,doc,plus=()):
    st=S(s)
    lean='ks ['+', '.join('.'+x for x in s.split())+']'
    for p in plus: st|=D[p][0]; lean=p+'K ||| '+lean
    df(name,st,lean,doc)
def uni(name,parts,doc):
    st=set()
    for p in parts: st|=D[p][0]
    df(name,st,' ||| '.join(p+'K' for p in parts),doc)
lst('void','Return ReturnC Break BreakC Next NextC Redo Retry','What leaves the expression it is in and so has no value.')
lst('strPart','Str Begin Gvar BackRef NthRef Ivar Cvar','What a string with interpolation consists of: text, `#{..}` and `#@x`.')
lst('strings','Str Dstr Heredoc','Strings.')
lst('numeric','Int Float Rational Complex','Numbers.')
lst('sym','Sym Dsym','Symbols.')
lst('keywordVar','Nil True False Self_ File Line Encoding','Keywords with a value.')
lst('userVar','Lvar Ivar Gvar Cvar Const','Variables and constants.')
lst('sends','Send Send0 CSend CSend0','Calls of methods by name.')
lst('callee','Send Send0 CSend CSend0 Index Super ZSuper Lambda','What takes a block.')
lst('jumpCallee','Send Send0 CSend CSend0 Index Super ZSuper Yield','What takes the block after `return`, `break` and `next`.')
lst('blocks','Block Numblock','Blocks with their calls.')
lst('target','LvasgnT IvasgnT GvasgnT CvasgnT CasgnT IndexAsgnT Send0 CSend0','Left-hand sides of assignments (assignments without a value).')
lst('assigned','Lvasgn Ivasgn Gvasgn Cvasgn Casgn IndexAsgn','Assignments with a value.')
lst('opAsgn','AndAsgn OrAsgn OpAsgn','Assignments with an operator.')
lst('primary','Array Begin BackRef NthRef Case CaseMatch Class Def Defined Defs For Hash If Index KwBegin Module Regexp SClass Super Until While XHeredoc Xstr Yield ZSuper','Expressions that need no parentheses anywhere (with a value).',['strings','numeric','sym','keywordVar','userVar','sends','blocks'])
lst('value','And Or Erange Irange IfTernary MatchWithLvasgn','Arguments (with a value).',['primary','assigned','opAsgn'])
lst('expr','MatchPattern MatchPatternP','Expressions (with a value).',['value'])
lst('stmt','Alias IfMod Masgn Postexe Rescue Undef UntilPost WhilePost','Statements.',['expr','void'])
lst('body','Ensure','Bodies of methods, classes and the like.',['stmt'])
lst('top','Preexe','Statements outside of everything.',['stmt'])
df('cond',(D['expr'][0]-S('Irange Erange Regexp'))|S('IFlipFlop EFlipFlop MatchCurrentLine'),'without exprK (ks [.Irange, .Erange, .Regexp]) ||| ks [.IFlipFlop, .EFlipFlop, .MatchCurrentLine]','Conditions: ranges and regular expressions have become flip-flops and matches of the current line.')
uni('operand',['expr','cond'],'Operands of `and`, `or` and `not`: expressions, or conditions inside of a condition.')
lst('valueSplat','Splat','Elements of arrays.',['value'])
lst('callArg','BlockPass Kwargs ForwardedArgs Rescue','Arguments of calls (`Rescue`: the value of an assignment to an attribute).',['valueSplat'])
lst('jumpArg','BlockPass','Arguments of `return`, `break` and `next`.',['valueSplat'])
lst('rhs','Rescue','Values of assignments.',['value'])
lst('pairs','Pair Kwsplat','Elements of hashes.')
lst('destr','Arg MlhsP Restarg','Parameters inside of a destructured parameter.')
lst('param','Arg Optarg Restarg Kwarg Kwoptarg Kwrestarg Kwnilarg Blockarg Shadowarg ForwardArg MlhsP Procarg0','Parameters.')
lst('mlhsItem','Mlhs Splat','Left-hand sides of multiple assignments.',['target'])
lst('patternPart','ArrayPattern ArrayPatternWithTail FindPattern HashPattern MatchAlt MatchAs MatchVar Pin ConstPattern','What occurs only in patterns.')
lst('pattern','Array Begin Const Erange Irange Regexp XHeredoc Xstr','Patterns.',['strings','numeric','sym','keywordVar','blocks','patternPart'])
lst('patternItem','MatchRest','Elements of array patterns.',['pattern'])
uni('begins',['top','patternPart','cond'],'What stands in parentheses.')
uni('kwBegins',['begins','body'],'What stands between `begin` and `end`.')
uni('pairValue',['value','patternPart'],'Values in hashes and in hash patterns.')
lst('scope','Cbase','What `::` is applied to.',['primary'])
EX={ 'definee':(D['expr'][0]-S('Int Float Rational Complex Str Dstr Sym Dsym Heredoc XHeredoc Regexp Array Hash'))}
df('definee',EX['definee'],'without exprK (stringsK ||| numericK ||| symK ||| ks [.XHeredoc, .Regexp, .Array, .Hash])','What a singleton method is defined on.')
uni('splatted',['value','target'],'What `*` is applied to, in an array or on the left of an assignment.')
uni('exprOrVoid',['expr','void'],'Expressions that are not required to have a value.')
uni('valueOrVoid',['value','void'],'Arguments that are not required to have a value.')
uni('receiver',['operand','void'],'Receivers of calls (also of `!`).')
uni('operandOrVoid',['operand','void'],'Right operands of `and` and `or`.')
lst('caseElse','EmptyElse','`else` of `case` with patterns.',['stmt'])
lst('dstrPart','Dstr Heredoc','Parts of strings: as above, or adjacent strings.',['strPart'])
lst('pinned','Begin Cvar Gvar Ivar Lvar Send0','What `^` is applied to.')
one=lambda k:f'ks [.{k}]'
FS={}
def fs(c,**kw):
    for f,v in kw.items(): FS[c,f]=v
def K(s): return ('K',s)
fs('Alias',to=K('Sym Dsym Gvar'),from_=K('Sym Dsym Gvar BackRef'))
for c in('And','Or'): fs(c,lhs='operand',rhs='operandOrVoid')
for c in('AndAsgn','OrAsgn','OpAsgn'): fs(c,recv='target',value='rhs')
fs('Args',args='param'); fs('Array',elements='valueSplat'); fs('ArrayPattern',elements='patternItem'); fs('ArrayPatternWithTail',elements='patternItem'); fs('Begin',statements='begins')
fs('Block',call=K('Send Send0 CSend CSend0 Index Super ZSuper Lambda Yield'),args=K('Args'),body='body'); fs('BlockPass',value='value')
for c in('Break','Next','Return'): fs(c,args='jumpArg')
fs('Case',expr='expr',when_bodies=K('When'),else_body='stmt'); fs('CaseMatch',expr='expr',in_bodies=K('InPattern'),else_body='caseElse'); fs('Casgn',scope='scope',value='rhs'); fs('Class',name=K('Const'),superclass='expr',body='body'); fs('Const',scope='scope'); fs('ConstPattern',const_=K('Const'),pattern=K('ArrayPattern FindPattern HashPattern ArrayPatternWithTail'))
fs('CSend',recv='receiver',args='callArg')
for c in('Lvasgn','Ivasgn','Gvasgn','Cvasgn'): fs(c,value='rhs')
fs('Def',args=K('Args'),body='body'); fs('Defined',value='exprOrVoid'); fs('Defs',definee='definee',args=K('Args'),body='body'); fs('Dstr',parts='dstrPart'); fs('Dsym',parts='dstrPart')
for c in('IFlipFlop','EFlipFlop'): fs(c,left='cond',right='cond')
fs('Ensure',body='stmt',ensure='stmt')
for c in('Irange','Erange'): fs(c,left='value',right='value')
fs('FindPattern',elements='patternItem'); fs('For',iterator=('U','target','Mlhs'),iteratee='expr',body='stmt'); fs('Hash',pairs='pairs'); fs('HashPattern',elements=K('Pair MatchVar MatchRest MatchNilPattern')); fs('Heredoc',parts='strPart'); fs('XHeredoc',parts='strPart'); fs('Xstr',parts='strPart'); fs('Regexp',parts='strPart',options=K('RegOpt'))
fs('If',cond='cond',if_true='stmt',if_false='stmt'); fs('IfMod',cond='cond',if_true='stmt',if_false='stmt'); fs('IfGuard',cond='expr'); fs('UnlessGuard',cond='expr'); fs('IfTernary',cond='value',if_true='valueOrVoid',if_false='valueOrVoid')
fs('Index',recv='primary',indexes='callArg'); fs('IndexAsgn',recv='primary',indexes='callArg',value='rhs'); fs('InPattern',pattern='pattern',guard=K('IfGuard UnlessGuard'),body='stmt')
fs('Kwargs',pairs='pairs'); fs('KwBegin',statements='kwBegins'); fs('Kwoptarg',default='value'); fs('Optarg',default='value'); fs('Kwsplat',value='value'); fs('Masgn',lhs=K('Mlhs'),rhs='rhs'); fs('MatchAlt',lhs='pattern',rhs='pattern'); fs('MatchAs',value='pattern',as_=K('MatchVar')); fs('MatchCurrentLine',re=K('Regexp'))
for c in('MatchPattern','MatchPatternP'): fs(c,value='valueOrVoid',pattern='pattern')
fs('MatchRest',name=K('MatchVar')); fs('MatchWithLvasgn',re=K('Regexp'),value='value'); fs('Mlhs',items='mlhsItem'); fs('MlhsP',items='destr'); fs('Procarg0',args='destr'); fs('Module',name=K('Const'),body='body'); fs('Numblock',call=FS['Block','call'],body='body')
fs('Pair',key='value',value='pairValue'); fs('Pin',var='pinned'); fs('Postexe',body='stmt'); fs('Preexe',body='top'); fs('Rescue',body='stmt',rescue_bodies=K('RescueBody'),else_='stmt'); fs('RescueBody',exc_list=K('Array'),exc_var='target',body='stmt'); fs('SClass',expr='exprOrVoid',body='body')
fs('Send',recv='receiver',args='callArg'); fs('Splat',value='splatted'); fs('Super',args='callArg'); fs('Yield',args='callArg'); fs('Undef',names='sym')
for c in('While','Until'): fs(c,cond='cond',body='stmt'); fs(c+'Post',cond='cond',body=K('KwBegin'))
fs('When',patterns='valueSplat',body='stmt')
def setof(v):
    if isinstance(v,str): return D[v][0]
    if v[0]=='K': return S(v[1])
    return D[v[1]][0]|S(v[2])
def leanof(v):
    if isinstance(v,str): return v+'K'
    if v[0]=='K': return '(ks ['+', '.join('.'+x for x in v[1].split())+'])'
    return '('+v[1]+'K ||| ks [.'+v[2]+'])'
if __name__=='__main__':
    from ab import *
    run()
    print(bad)
    for (c,f) in sorted(C):
        if (c,f) not in FS: print('no spec',c,f); continue
        s=setof(FS[c,f])
        if not C[c,f]<=s: print('MISSING',c,f,sorted(C[c,f]-s))
        elif s-C[c,f]: print('slack',c,f,sorted(s-C[c,f]))
    for k in FS:
        if k not in C: print('unused',k)
    print('NE',[(c,f) for (c,f) in sorted(C) if NE[c,f]])
