from tab import *
def parse(e):
    m=re.match(r'=(\d+)$',e)
    pos=0
    def ex():
        nonlocal pos
        m=re.compile(r'\$(\d+)(?:\.(\d+))?').match(e,pos)
        if m: pos=m.end(); return f'.fld {m.group(1)} {m.group(2) or 0}'
        m=re.compile(r'(\w+)(?::(\w+))?\(').match(e,pos)
        assert m,(e,pos)
        pos=m.end(); args=[]
        while e[pos]!=')':
            args.append(ex())
            if e[pos]==',': pos+=1
        pos+=1
        f='.'+m.group(1) if not m.group(2) else f'(.{m.group(1)} .{m.group(2)})'
        return f'.call {f} ['+', '.join(args)+']'
    r=ex(); assert pos==len(e),e
    return r
out=[]
for l,rhs,ln,k in R:
    es=E.get(k,[])
    if len(es)==1 and es[0][0]=='=': v=f'.copy {es[0][1:]}'
    else: v='.mk ['+', '.join(parse(e) for e in es)+']'
    out.append((l,ln,v))
o=['''import Verif.Model.Grammar.Values
/-!
What the last action of each production of `src/parser/parse.y` gives to `$$`, in the order of `rules`, with the line of the action.
For `program` it is the value given to `self.result` (src/parser/parse.y:355-357; `$$` is `Value::None` there).
For a production with an action that always fails nothing is listed.
-/
namespace Verif.Grammar
''']
n=0
for c in range(0,len(out),40):
    o.append(f'/-- Productions {c} to {min(c+39,len(out)-1)}. -/\ndef outs{n} : List (Nat × ValOut) := [')
    ch=out[c:c+40]
    for i,(l,ln,v) in enumerate(ch):
        o.append(f'  -- {l}' if i==0 or ch[i-1][0]!=l else None)
        o.append(f'  ({ln}, {v})'+(',' if i<len(ch)-1 else ']'))
    n+=1
o=[x for x in o if x]
o.append('\n/-- All productions. -/\ndef outs : List (Nat × ValOut) :=\n  '+' ++ '.join(f'outs{i}' for i in range(n)))
o.append('''
mutual
/-- `vs` is a possible semantic value of the tree: the value of a token is the token; the value of a production comes from the
values of its symbols by its last action. -/
def Evals (ext : BldExt) : TTree → List Atom → Prop
  | .leaf t, vs => vs = [.tok t]
  | .node r kids, vs => ∃ ρ o, rules[r]? = some ρ ∧ outs[r]? = some o ∧ ρ.rhs.all (fun i => !i.refuses) = true ∧
      ∃ vss, evalsL ext kids vss ∧ o.2.Gives ext (slots ρ.rhs vss) vs
/-- The same for a list. -/
def evalsL (ext : BldExt) : List TTree → List (List Atom) → Prop
  | [], vss => vss = []
  | t :: ts, vss => ∃ v vs, vss = v :: vs ∧ Evals ext t v ∧ evalsL ext ts vs
end

end Verif.Grammar''')
open('/verif/lean/Verif/Model/Grammar/Outs.lean','w').write('\n'.join(o)+'\n')
