from tab import *
for k,es in E.items():
    acts={norm(rhs[-1][1]) for l,rhs,ln,kk in R if kk==k}
    assert len(acts)==1
    a=acts.pop()
    src=set(int(m.group(2)) for m in re.finditer(r'\$<(\w+)>(\d+)',a) if m.group(1) not in('Context','Bool','Num','MaybeStrTerm')) | {int(x) for x in re.findall(r'\$(\d+)',a)}
    ds={int(x) for e in es for x in re.findall(r'[$=](\d+)',e)}
    if src!=ds: print(k,src,ds,a[:200])
    # builder calls
    calls=sorted(re.findall(r'self\.builder\.(\w+)',a))
    dn=[x for e in es for x in re.findall(r'(\w+)(?::\w+)?\(',e)]
    print(k,calls,'|',[x for x in dn if x not in('someT','someN','noneT','noneN','nilL','single','append','checked')]) if len(sys.argv)>1 else 0
    ve=a.count('value_expr')
    if ve!=dn.count('checked') : print('VE',k,ve,dn)
