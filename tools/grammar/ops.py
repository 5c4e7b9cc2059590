from kinds import *
PAT=[
 (r'self\.local_push\(\)', lambda m:[('push','env'),('push','cmdarg'),('push','cond'),('push','num')]),
 (r'self\.local_pop\(\)', lambda m:[('pop','env'),('pop','cmdarg'),('pop','cond'),('pop','num')]),
 (r'self\.static_env\.extend_dynamic\(\)', lambda m:[('push','env')]),
 (r'self\.static_env\.extend_static\(\)', lambda m:[('push','env')]),
 (r'self\.static_env\.unextend\(\)', lambda m:[('pop','env')]),
 (r'self\.current_arg_stack\.push\(None\)', lambda m:[('push','arg')]),
 (r'self\.current_arg_stack\.pop\(\)', lambda m:[('pop','arg')]),
 (r'self\.current_arg_stack\.set\(', lambda m:[('set','arg')]),
 (r'self\.max_numparam_stack\.push\((true|false)\)', lambda m:[('push','num')]),
 (r'self\.max_numparam_stack\.pop\(\)', lambda m:[('pop','num')]),
 (r'self\.max_numparam_stack\.set_has_ordinary_params\(\)', lambda m:[('set','num')]),
 (r'self\.max_numparam_stack\.(has_numparams|top)\(\)', lambda m:[]),
 (r'self\.pattern_variables\.push\(\)', lambda m:[('push','pv')]),
 (r'self\.pattern_variables\.pop\(\)', lambda m:[('pop','pv')]),
 (r'self\.pattern_hash_keys\.push\(\)', lambda m:[('push','pk')]),
 (r'self\.pattern_hash_keys\.pop\(\)', lambda m:[('pop','pk')]),
 (r'if lookahead \{ self\.yylexer\.cmdarg\.pop\(\) \}\s*self\.yylexer\.cmdarg\.(push\(true\)|pop\(\));\s*if lookahead \{ self\.yylexer\.cmdarg\.push\(false\) \}',
     lambda m:[('push' if m.group(1)[1]=='u' else 'pop','cmdarg')]),
 (r'self\.yylexer\.(cond|cmdarg)\.push\((true|false)\)', lambda m:[('push',m.group(1))]),
 (r'self\.yylexer\.(cond|cmdarg)\.pop\(\)', lambda m:[('pop',m.group(1))]),
 (r'self\.static_env\.declare\w*\(', lambda m:[('set','env')]),
 (r'self\.static_env\.is_\w+\(', lambda m:[]),
 (r'self\.context\.set_(\w+)\((true|false)\)', lambda m:[('flag',m.group(1),m.group(2)=='true')]),
 (r'self\.context\.set_(\w+)\(\$<Context>(\d+)\.(\w+)\(\)\)', lambda m:[('restore',m.group(1),int(m.group(2)),m.group(3))]),
 (r'self\.context\.set_(\w+)\(\$<Bool>(\d+)\)', lambda m:[('restore',m.group(1),int(m.group(2)),m.group(1))]),
 (r'self\.context\.set_(\w+)\(ctx\.(\w+)\(\)\)', lambda m:[('restore',m.group(1),1,m.group(2))]),
 (r'\$<Bool>\$ = Value::Bool\(self\.context\.(\w+)\(\)\)', lambda m:[('savebool',m.group(1))]),
 (r'self\.context\.dump\(\)', lambda m:[('save',)]),
 (r'self\.context\.(in_\w+)\(\)', lambda m:[]),
 (r'self\.yylexer\.(paren_nest|brace_nest|lpar_beg)', lambda m:[]),
]
INTEREST=re.compile(r'static_env|current_arg_stack|max_numparam_stack|pattern_variables|pattern_hash_keys|yylexer\.cond|yylexer\.cmdarg|context\b|local_push|local_pop')
def ops(s,ln):
    out=[];i=0
    while i<len(s):
        best=None
        for p,f in PAT:
            m=re.compile(p).match(s,i)
            if m: best=(m,f); break
        if best:
            out+=best[1](best[0]); i=best[0].end(); continue
        if INTEREST.match(s,i) and (i==0 or not (s[i-1].isalnum() or s[i-1]=='_')):
            print('UNMATCHED',ln,s[i-20:i+60].replace('\n',' '))
        i+=1
    return out
if __name__=='__main__':
    for l,rhs,pos in rules:
        for t in rhs:
            if t[0]=='act':
                s=strip_comments(t[1]); o=ops(s,line_of(t[2]))
                if o: print(l,line_of(t[2]),o)
