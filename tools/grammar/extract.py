import re,sys,json
src=open('/repo/src/parser/parse.y').read()
parts=src.split('\n%%\n')
assert len(parts)==3 or print(len(parts))
start_line=parts[0].count('\n')+2+1
body=parts[1]
base=len(parts[0])+len('\n%%\n')
def line_of(pos): return src.count('\n',0,base+pos)+1
i=0;n=len(body)
toks=[] # (kind,text,pos)
while i<n:
    c=body[i]
    if c.isspace(): i+=1; continue
    if body.startswith('/*',i):
        i=body.index('*/',i)+2; continue
    if body.startswith('//',i):
        i=body.index('\n',i); continue
    if c=='{':
        j=i;d=0
        while True:
            ch=body[j]
            if body.startswith('//',j): j=body.index('\n',j); continue
            if body.startswith('/*',j): j=body.index('*/',j)+2; continue
            if ch=='"':
                j+=1
                while body[j]!='"':
                    if body[j]=='\\': j+=1
                    j+=1
                j+=1; continue
            if ch=="'":
                m=re.match(r"'(\\.|[^\\'])'",body[j:])
                if m: j+=m.end(); continue
            if ch=='{': d+=1
            if ch=='}':
                d-=1
                if d==0: break
            j+=1
        toks.append(('act',body[i:j+1],i)); i=j+1; continue
    if c in ':|;': toks.append((c,c,i)); i+=1; continue
    if c=='%':
        m=re.match(r'%(\w+)\s+(\w+)',body[i:])
        toks.append(('prec',m.group(0),i)); i+=m.end(); continue
    m=re.match(r'\w+',body[i:])
    if not m: raise Exception(body[i:i+50])
    toks.append(('id',m.group(0),i)); i+=m.end()
rules=[]
k=0
while k<len(toks):
    assert toks[k][0]=='id' and toks[k+1][0]==':',toks[k:k+3]
    lhs=toks[k][1]; k+=2
    cur=[]; curpos=toks[k][2]
    while True:
        t=toks[k]
        if t[0] in '|;':
            rules.append((lhs,cur,curpos))
            cur=[]
            k+=1
            if t[0]==';': break
            curpos=toks[k][2]
        elif t[0]=='prec': k+=1
        elif t[0]=='id' and toks[k+1][0]==':': raise Exception('missing ;',t)
        else:
            cur.append(t); k+=1
def strip_comments(s):
    return re.sub(r'//[^\n]*','',s)
if __name__=='__main__':
    print(len(rules),len({r[0] for r in rules}))
    nts={r[0] for r in rules}
    noact=[r for r in rules if not (r[1] and r[1][-1][0]=='act')]
    print('no final action',len(noact),[ (r[0],line_of(r[2])) for r in noact][:10])
    casts=set();res={}
    for l,rhs,pos in rules:
        for t in rhs:
            if t[0]=='act':
                s=strip_comments(t[1])
                for m in re.finditer(r'\$<(\w+)>(\d+|\$)|\$(\d+|\$)',s): casts.add(m.group(1))
                for m in re.finditer(r'\$(?:<\w+>)?\$\s*(=[^=][^;]{0,60})?',s):
                    x=(m.group(1) or 'NONE:'+s[m.start():m.start()+60])
                    x=re.sub(r'\s+',' ',x)
                    x=re.match(r'(= Value::\w+|= \$\d+|.*)',x).group(1)
                    res.setdefault(x,[]).append(line_of(t[2]))
                if not re.search(r'\$(<\w+>)?\$',s): print('no result',l,line_of(t[2]))
    print(casts)
    for x in sorted(res,key=lambda x:-len(res[x])): print(len(res[x]),x,res[x][:3])
