from ops import *
import touch
FLAG={'in_defined':'inDefined','in_kwarg':'inKwarg','in_argdef':'inArgdef','in_def':'inDef','in_class':'inClass','in_lambda':'inLambda','in_block':'inBlock'}
order=[]
for l,_,_ in rules:
    if l not in order: order.append(l)
kw={'in','do','end','def','class','module','then','begin','match','fun','let','open','for','return','if','else','mut','where','from','have','show','by','at','meta','public','private','partial','unsafe','variable','rec','alias'}
def ntn(n): return f'.n NT.«{n}»' if n in kw else f'.n NT.{n}'
# ---- ops with touches, in textual order
def lops(s,ln):
    out=[];i=0
    P=[]
    while i<len(s):
        m=re.compile(r'self\.builder\.(\w+)').match(s,i) or re.compile(r'self\.builder\s*\.\s*(\w+)').match(s,i)
        if m:
            t=touch.T.get(m.group(1)); assert t is not None,m.group(1)
            if t: out.append('.touch ['+', '.join('.'+x for x in sorted(t))+']')
            i=m.end(); continue
        hit=False
        for p,f in LP:
            m=re.compile(p).match(s,i)
            if m:
                out+=f(m); i=m.end(); hit=True; break
        if hit: continue
        if INTEREST.match(s,i) and (i==0 or not (s[i-1].isalnum() or s[i-1]=='_')):
            print('UNMATCHED',ln,s[i-20:i+60].replace('\n',' '))
        i+=1
    return out
LP=[
 (r'self\.local_push\(\)', lambda m:['.envStatic','.cmdPush false','.condPush false','.numPush true']),
 (r'self\.local_pop\(\)', lambda m:['.envPop','.cmdPop','.condPop','.numPop']),
 (r'self\.static_env\.extend_dynamic\(\)', lambda m:['.envDynamic']),
 (r'self\.static_env\.extend_static\(\)', lambda m:['.envStatic']),
 (r'self\.static_env\.unextend\(\)', lambda m:['.envPop']),
 (r'self\.current_arg_stack\.push\(None\)', lambda m:['.argPush']),
 (r'self\.current_arg_stack\.pop\(\)', lambda m:['.argPop']),
 (r'self\.current_arg_stack\.set\(', lambda m:['.touch [.arg]']),
 (r'self\.max_numparam_stack\.push\((true|false)\)', lambda m:['.numPush '+m.group(1)]),
 (r'self\.max_numparam_stack\.pop\(\)', lambda m:['.numPop']),
 (r'self\.max_numparam_stack\.set_has_ordinary_params\(\)', lambda m:['.touch [.num]']),
 (r'self\.max_numparam_stack\.(has_numparams|top)\(\)', lambda m:[]),
 (r'self\.pattern_variables\.push\(\)', lambda m:['.pvPush']),
 (r'self\.pattern_variables\.pop\(\)', lambda m:['.pvPop']),
 (r'self\.pattern_hash_keys\.push\(\)', lambda m:['.pkPush']),
 (r'self\.pattern_hash_keys\.pop\(\)', lambda m:['.pkPop']),
 (r'if lookahead \{ self\.yylexer\.cmdarg\.pop\(\) \}\s*self\.yylexer\.cmdarg\.(push\(true\)|pop\(\));\s*if lookahead \{ self\.yylexer\.cmdarg\.push\(false\) \}',
     lambda m:['.cmdPushLA' if m.group(1)[1]=='u' else '.cmdPopLA']),
 (r'self\.yylexer\.cond\.push\((true|false)\)', lambda m:['.condPush '+m.group(1)]),
 (r'self\.yylexer\.cmdarg\.push\((true|false)\)', lambda m:['.cmdPush '+m.group(1)]),
 (r'self\.yylexer\.cond\.pop\(\)', lambda m:['.condPop']),
 (r'self\.yylexer\.cmdarg\.pop\(\)', lambda m:['.cmdPop']),
 (r'self\.static_env\.declare\w*\(', lambda m:['.touch [.env]']),
 (r'self\.static_env\.is_\w+\(', lambda m:[]),
 (r'self\.context\.set_(\w+)\((true|false)\)', lambda m:[f'.flag .{FLAG[m.group(1)]} {m.group(2)}']),
 (r'self\.context\.set_(\w+)\(\$<Context>(\d+)\.(\w+)\(\)\)', lambda m:[rest(m.group(1),m.group(2),m.group(3))]),
 (r'self\.context\.set_(\w+)\(\$<Bool>(\d+)\)', lambda m:[rest(m.group(1),m.group(2),m.group(1))]),
 (r'self\.context\.set_(\w+)\(ctx\.(\w+)\(\)\)', lambda m:[rest(m.group(1),1,m.group(2))]),
 (r'\$<Bool>\$ = Value::Bool\(self\.context\.(\w+)\(\)\)', lambda m:[f'.saveBool .{FLAG[m.group(1)]}']),
 (r'self\.context\.dump\(\)', lambda m:['.dump']),
 (r'name_t: \$<TokenWithContext>(\d+)', lambda m:[f'.carry {m.group(1)}']),
 (r'self\.context\.(in_\w+)\(\)', lambda m:[]),
]
def rest(f,n,g):
    assert f==g
    return f'.restore .{FLAG[f]} {n}'
castnames=set(); kindnames=set(['Stolen','Uninitialized','Token'])
def act(t,l):
    s=strip_comments(t[1]); ln=line_of(t[2])
    us=[]
    for m in re.finditer(r'\$<(\w+)>(\d+)|\$(\d+)|yystack\.borrow_value_at\((\d+)\)',s):
        if m.group(1): castnames.add(m.group(1)); us.append(f'(.{m.group(1)}, {m.group(2)})')
        elif m.group(3): us.append(f'(.raw, {m.group(3)})')
        else: us.append(f'(.peekNode, 1)'); assert m.group(4)=='1'
    rs=[]
    for k,v in results(s):
        if k=='copy': rs.append(f'.copy {v}')
        else: kindnames.add(v); rs.append(f'.new .{v}')
    # keep first occurrences
    rr=[]
    for x in rs:
        if x not in rr: rr.append(x)
    os=lops(s,ln)
    ab='yyerror' in s and not rs
    if not rs: assert ab,(l,ln)
    j=lambda xs:'['+', '.join(xs)+']'
    return f'.a ⟨{ln}, {"true" if ab else "false"}, {j(us)}, {j(os)}, {j(rr)}⟩'
out=[]
for l,rhs,pos in rules:
    items=[]
    for t in rhs:
        if t[0]=='act': items.append(act(t,l))
        elif t[1]=='error': items.append('.err')
        elif t[1] in nts: items.append(ntn(t[1]))
        else: items.append('.t .'+t[1])
    out.append((l,line_of(pos),items))
if __name__=='__main__':
    print(sorted(castnames)); print(sorted(kindnames))
    print(len(out), sum(len(i) for _,_,i in out))
    for x in out[:6]: print(x)
