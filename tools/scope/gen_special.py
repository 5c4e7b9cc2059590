# Writes the first part of Lemmas/ScopeSpecial.lean: the kinds of nodes that are not plain.
nodes = [ # name, fields, own, walled, nested, open
 ('Lvar','n l','','','',''),
 ('Lvasgn','n v a b c','n','','','v?'),
 ('Arg','n l','n','','',''),
 ('Optarg','n v a b c','n','','','v'),
 ('Kwarg','n a b','n','','',''),
 ('Kwoptarg','n v a b','n','','','v'),
 ('Shadowarg','n l','n','','',''),
 ('Restarg','n a b c','n?','','',''),
 ('Kwrestarg','n a b c','n?','','',''),
 ('Blockarg','n a b c','n?','','',''),
 ('MatchVar','n a b','n','','',''),
 ('MatchWithLvasgn','v w a b','g','','','v w'),
 ('Def','n v w a b c d e','','v? w?','',''),
 ('Defs','u n v w a b c d e f','','v? w?','','u'),
 ('Class','u v w a b c d','','w?','','u v?'),
 ('Module','u w a b c','','w?','','u'),
 ('SClass','u w a b c d','','w?','','u'),
 ('Block','u v w a b c','','','v? w?','u'),
 ('Numblock','u n w a b c','','','w','u'),
]
def l(Q, s):
    return ' ∨ '.join(f'Some_ ({Q} ext x) {p[:-1]}.toList' if p.endswith('?') else f'{Q} ext x {p}' for p in s.split())
out=[]
for c,fs,own,wal,nest,op in nodes:
    lhs=lambda Q: f'{Q} ext x (.{c} {fs}) ↔ '
    b=[]
    if own=='n': b.append('x = n')
    if own=='n?': b.append('x ∈ n')
    if own=='g': b.append('x ∈ groupNames ext v')
    if op: b.append(l('Binds',op))
    out.append(f"theorem binds_{c} : {lhs('Binds')}{' ∨ '.join(b) or 'False'} := by\n  rw [binds_iff]; simp [ownNames, open_, Node.children, or_assoc]")
    u=[]
    if c=='Lvar': u.append('n = x')
    if op: u.append(l('Uses',op))
    if nest: u.append(f"(({l('Uses',nest)}) ∧ ¬ ({l('Binds',nest)}))")
    out.append(f"theorem uses_{c} : {lhs('Uses')}{' ∨ '.join(u) or 'False'} := by\n  rw [uses_iff]; simp [ownNames, open_, nested, Node.children, or_assoc]")
    o=[]
    if wal: o.append(f"(({l('Uses',wal)}) ∧ ¬ ({l('Binds',wal)}))")
    kids={'Class':'u v? w?','Module':'u w?','SClass':'u w?','Def':'v? w?','Defs':'u v? w?','Block':'u v? w?','Numblock':'u w'}.get(c,op)
    if kids: o.append(l('Loose',kids))
    out.append(f"theorem loose_{c} : {lhs('Loose')}{' ∨ '.join(o) or 'False'} := by\n  rw [loose_iff]; simp [walled, Node.children, or_assoc]")
names=[f'{q}_{c}' for c,*_ in nodes for q in('binds','uses','loose')]
lines,cur=[],'  '
for n in names:
    w=n+', '
    if len(cur)+len(w)>120: lines.append(cur.rstrip()); cur='  '
    cur+=w
lines.append(cur.rstrip().rstrip(','))
text='''import Verif.Lemmas.ScopeFn
/-!
The kinds of nodes that bind, mention or delimit. Written by tools/scope/gen_special.py.
-/
set_option linter.unusedSimpArgs false
namespace Verif
open Builder Grammar ScopeSpec
variable {ext : BldExt} {x : Text}

'''+'\n'.join(out)+'''

/-- Rewriting with all of these. -/
macro "nonplain" : tactic => `(tactic| simp only [
'''+'\n'.join(lines)+'''])

end Verif
'''
open('/verif/lean/Verif/Lemmas/ScopeNodes.lean','w').write(text)
