# Writes the lemmas of Lemmas/ScopeAdd.lean from the equations of `Node.children` in Model/Ast.lean.
import re
src = open('/verif/lean/Verif/Model/Ast.lean').read()
i = src.index('def children')
eqs = re.findall(r'  \| \.(\w+) ([^=\n]*?) => ([^\n]*)\n', src[i:])
special = set('Lvar Lvasgn Arg Optarg Kwarg Kwoptarg Shadowarg Restarg Kwrestarg Blockarg MatchVar MatchWithLvasgn Def Defs Class Module SClass Block Numblock'.split())
asgn = set('Casgn OpAsgn AndAsgn OrAsgn'.split())
out = []
names = []
seen = set()
for c, args, rhs in eqs:
    if c in seen: break
    seen.add(c)
    if c in special: continue
    ts = args.split()
    ps = []
    for k, a in enumerate(ts):
        ps.append(a if a != '_' else f'y{k}')
    terms = []
    for part in rhs.split(' ++ '):
        part = part.strip()
        m = re.fullmatch(r'\[(\w+)\]', part)
        if m: terms.append(f'Q {m.group(1)}')
        elif part == '[]': pass
        else: terms.append(f'Some_ Q {part}' if '.' in part or ' ' not in part else f'Some_ Q ({part})')
    stmt = ' ∨ '.join(terms) if terms else '_root_.False'
    if c in asgn:
        out.append(f"theorem Wide.{c} (h : Wide Q) {{{' '.join(ps)}}} : Q (.{c} {' '.join(ps)}) ↔ {stmt} :=\n  (h.asgn _ rfl).trans (by simp [Node.children, or_assoc])")
        continue
    out.append(f"theorem Additive.{c} (h : Additive Q) {{{' '.join(ps)}}} : Q (.{c} {' '.join(ps)}) ↔ {stmt} :=\n  (h _ rfl).trans (by simp [Node.children, or_assoc])")
    names.append(c)
print(len(names))
lem = ', '.join(f'h.{c}' for c in names)
# break the list into lines
lines, cur = [], '  '
for c in names:
    w = f'($h).{c}, '
    if len(cur) + len(w) > 120: lines.append(cur.rstrip()); cur = '  '
    cur += w
lines.append(cur.rstrip().rstrip(','))
text = '''import Verif.Lemmas.ScopeSum
/-!
Additive predicates on each kind of plain node. Written by tools/scope/gen_add.py.
-/
set_option linter.unusedSimpArgs false
namespace Verif
open Builder Grammar ScopeSpec
variable {Q : Node → Prop}

''' + '\n'.join(out) + '''

/-- Rewriting with all of these. -/
macro "adds" h:term : tactic => `(tactic| simp only [Atom.trees, List.flatMap_cons, List.flatMap_nil, List.append_nil, List.nil_append, some_cons,
  some_nil, some_append, Option.toList_some, Option.toList_none, or_false, false_or,
''' + '\n'.join(lines) + '''] at *)

end Verif
'''
text = text.replace('] at *)', '])')
open('/verif/lean/Verif/Lemmas/ScopeAdd.lean', 'w').write(text)
