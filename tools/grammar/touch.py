import re
src=open('/repo/src/builder.rs').read()
# split functions
fns={}
for m in re.finditer(r'\n    (?:pub(?:\(crate\))? )?fn (\w+)',src):
    i=src.index('{',src.index(')',m.end())) 
    # find body start: first '{' at depth after signature
    j=i;d=0
    while True:
        if src[j]=='{': d+=1
        if src[j]=='}':
            d-=1
            if d==0: break
        j+=1
    fns[m.group(1)]=src[i:j+1]
direct={}
for f,b in fns.items():
    s=set()
    if re.search(r'static_env\s*\.declare',b): s.add('env')
    if re.search(r'max_numparam_stack\s*\.(register|set_has)',b): s.add('num')
    if re.search(r'pattern_variables\s*\.(declare|is_declared)',b): s.add('pv')
    if re.search(r'pattern_hash_keys\s*\.(declare|is_declared)',b): s.add('pk')
    if re.search(r'current_arg_stack\s*\.(set|push|pop)',b): s.add('arg')
    if re.search(r'context\s*\.set',b): s.add('CTX')
    direct[f]=s
calls={f:{c for c in re.findall(r'(?:self\s*\.\s*|Self::)(\w+)',b) if c in fns} for f,b in fns.items()}
T={f:set(direct[f]) for f in fns}
ch=True
while ch:
    ch=False
    for f in fns:
        for c in calls[f]:
            if not T[c]<=T[f]: T[f]|=T[c]; ch=True
if __name__=='__main__':
    for f in T:
        if T[f]: print(f,T[f])
