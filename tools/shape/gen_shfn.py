from gen_fn import *
POLY="someN single append checked array multiLhs hashPattern findPattern associate args arrayPattern compstmt begin accessible assignable procargs callDot callFn callFnParen callDotParen callParen block".split()
def absx(s): 
    r=tr.parse(s)[1]
    return r
def esc(n): return f'«{n}»' if n in('alias','begin','case','when','if','let','default') else n
monos=[]; 
for k,(ins,o) in tr.MONO.items():
    n,_,p=k.partition(':')
    pat='.'+n+(' .'+p if p else '')
    monos.append(f'  | {pat} => some ([{", ".join(absx(i) for i in ins)}], {absx(o)})')
head=r'''import Verif.Spec.Calls
import Verif.Lemmas.ShapeAbs
/-!
The kinds of nodes the functions called in actions take and give, and that they do.
-/
namespace Verif
open Builder Shape Grammar

/-- Functions that take and give values of fixed descriptions. -/
def Grammar.BFn.mono : BFn → Option (List Abs × Abs)
'''+'\n'.join(monos)+r'''
  | _ => none

/-- An element or an opening token. -/
def polyHeld (k : Kinds) (r : Kinds) : List Abs → Option Abs
  | [.otok no _, .nodes m ne, .otok _ _] => if (ne || !no) && sub m k then some (.node r) else none
  | _ => none
/-- `multi_lhs` -/
def polyMultiLhs : List Abs → Option Abs
  | [.otok _ _, .nodes m true, .otok _ _] =>
    if sub m destrK then some (.node (ks [.MlhsP])) else if sub m mlhsItemK then some (.node (ks [.Mlhs])) else none
  | _ => none
/-- `find_pattern` -/
def polyFind : List Abs → Option Abs
  | [.otok _ _, .nodes m true, .otok _ _] => if sub m patternItemK then some (.node (ks [.FindPattern])) else none
  | _ => none
/-- `args` -/
def polyArgs : List Abs → Option Abs
  | [.otok no _, .nodes m ne, .otok no' yes'] =>
    if sub m paramK && (ne || !no || !yes') then some (.onode (ks [.Args]) (no && !ne && no')) else none
  | _ => none
/-- `array_pattern` -/
def polyArrayPattern : List Abs → Option Abs
  | [.otok no _, .nodes m ne, .otok _ yes, .otok _ _] =>
    if (ne || !no) && sub m patternItemK then
      some (.node (if yes then ks [.ArrayPattern, .ArrayPatternWithTail] else ks [.ArrayPattern]))
    else none
  | _ => none
/-- `compstmt` -/
def polyCompstmt : List Abs → Option Abs
  | [.nodes m ne] => if sub m beginsK then some (.onode (m ||| ks [.Begin]) (!ne)) else none
  | _ => none
/-- `begin` -/
def polyBegin : List Abs → Option Abs
  | [.tok, .onode m opt, .tok] =>
    if !opt && sub m (ks [.Mlhs, .MlhsP]) then some (.node m)
    else if sub (without m (ks [.Mlhs, .MlhsP])) beginsK then some (.node ((m &&& ks [.Mlhs, .MlhsP]) ||| ks [.Begin])) else none
  | _ => none
/-- `assignable` -/
def polyAssignable : List Abs → Option Abs
  | [.node m] =>
    if sub m (ks [.MatchVar]) then some (.node (ks [.MatchVar]))
    else if sub m (ks [.Cvar, .Ivar, .Gvar, .Const, .Lvar, .BackRef, .NthRef] ||| keywordVarK) then
      some (.node (ks [.LvasgnT, .IvasgnT, .GvasgnT, .CvasgnT, .CasgnT]))
    else none
  | _ => none
/-- Parameters of a block -/
def polyProcargs : List Abs → Option Abs
  | [.nodes a x, .nodes b y] =>
    if y || a == 0 then some (.nodes (a ||| b) (x || y))
    else if sub a (ks [.Arg, .MlhsP]) then some (.nodes (a ||| b ||| ks [.Procarg0]) (x || y)) else none
  | _ => none
/-- The kinds of a call with arguments of the kinds `m`. -/
def sendK (m : Kinds) (dot : Bool) : Kinds :=
  if m == 0 then callK dot true else callK dot true ||| callK dot false
/-- The same for a call with a receiver. -/
def polySend (c m : Kinds) : Option Abs := if sub c receiverK && sub m callArgK then some (.node (sendK m true)) else none
/-- The same for a call without a receiver. -/
def polyCall (m : Kinds) : Option Abs := if sub m callArgK then some (.node (sendK m false)) else none
/-- `block` -/
def polyBlock : List Abs → Option Abs
  | [.node c, .tok, .args a, .onode b _, .tok] =>
    if sub a (ks [.Args]) && sub b bodyK then
      if sub c calleeK then some (.node blocksK)
      else if sub c (calleeK ||| ks [.Yield, .ReturnC, .BreakC, .NextC]) then some (.node (blocksK ||| ks [.Return, .Break, .Next]))
      else none
    else none
  | _ => none
/-- `return`, `break` and `next` -/
def polyJump (p : KeywordCmd) (m : Kinds) (ne : Bool) : Option Abs :=
  if (p == .Return || p == .Break || p == .Next) && sub m jumpArgK then
    some (.node (if ne && sub m jumpCalleeK then jumpCK p else jumpK p))
  else none

/-- Functions whose results depend on the kinds of their arguments. -/
def Grammar.BFn.poly (f : BFn) (as : List Abs) : Option Abs :=
  match f with
  | .someN => match as with
    | [.node m] => some (.onode m false)
    | _ => none
  | .single => match as with
    | [.node m] => some (.nodes m true)
    | _ => none
  | .append => match as with
    | [.nodes a x, .nodes b y] => some (.nodes (a ||| b) (x || y))
    | _ => none
  | .checked => match as with
    | [.node m] => some (.node (without m voidK))
    | _ => none
  | .array => polyHeld valueSplatK (ks [.Array]) as
  | .hashPattern => polyHeld (ks [.Pair, .MatchVar, .MatchRest, .MatchNilPattern]) (ks [.HashPattern]) as
  | .associate => polyHeld pairsK (ks [.Hash]) as
  | .multiLhs => polyMultiLhs as
  | .findPattern => polyFind as
  | .args => polyArgs as
  | .arrayPattern => polyArrayPattern as
  | .compstmt => polyCompstmt as
  | .begin => polyBegin as
  | .accessible => match as with
    | [.node m] => some (.node (accK m))
    | _ => none
  | .assignable => polyAssignable as
  | .procargs => polyProcargs as
  | .callDot => match as with
    | [.node c, .tok, .tok, .nodes m _] => polySend c m
    | _ => none
  | .callDotParen => match as with
    | [.node c, .tok, .tok, .tok, .nodes m _, .tok] => polySend c m
    | _ => none
  | .callParen => match as with
    | [.node c, .tok, .tok, .nodes m _, .tok] => polySend c m
    | _ => none
  | .callFn => match as with
    | [.tok, .nodes m _] => polyCall m
    | _ => none
  | .callFnParen => match as with
    | [.tok, .tok, .nodes m _, .tok] => polyCall m
    | _ => none
  | .block => polyBlock as
  | .keyword p => match as with
    | [.tok, .nodes m ne] => polyJump p m ne
    | _ => none
  | .keywordParen p => match as with
    | [.tok, .tok, .nodes m ne, .tok] => polyJump p m ne
    | _ => none
  | _ => none

/-- What a function gives for arguments of these descriptions, if it takes them. -/
def Grammar.BFn.gives (f : BFn) (as : List Abs) : Option Abs :=
  match f.mono with
  | some (ins, o) => if leL as ins then some o else none
  | none => f.poly as

theorem BldR.Safe.guard {α : Type} {m : BldR α} {g g' : Prop} {P : α → Prop} (h : BldR.Safe g m P) (hg : g' → g) : BldR.Safe g' m P := by
  intro s
  have := h s
  unfold Res.Safe at this ⊢
  split
  · rename_i e; rw [e] at this; exact this
  · rename_i e; rw [e] at this; exact fun k => this (hg k)

theorem mono_safe {ext : BldExt} {indent : Int} {f : BFn} {ins : List Abs} {o : Abs} {xs : List Atom} (h : f.mono = some (ins, o))
    (hx : HasL ins xs) : BldR.Safe (f.Dedents indent xs) (applyFn ext indent f xs) o.Has := by
  cases f with
'''
def post(s):
    if s=='T': return 'fun _ _ => trivial'
    if s=='O+': return 'fun _ h => ⟨fun e => (by rw [e] at h; cases h), fun _ => rfl⟩'
    if s=='O-': return 'fun _ h => ⟨fun _ => rfl, fun e => (by rw [h] at e; cases e)⟩'
    k=s.split()[0]
    return {'N':'fun _ h => h','P':'fun _ h => ⟨h, nofun⟩','P!':'fun _ h => ⟨h.1, fun _ => h.2⟩','L':'fun _ h => ⟨h, nofun⟩','L+':'fun _ h => ⟨h.1, fun _ => h.2⟩'}.get(k,'fun _ h => h')
def arg(i,s):
    if s in('T','O'): return ''
    k=s.split()[0]
    return {'P':f' h{i}.1','P!':f' h{i}.1 (h{i}.2 rfl)','L':f' h{i}.1','L+':f' h{i}.1 (h{i}.2 rfl)'}.get(k,f' h{i}')
def term(k):
    ins,o=tr.MONO[k]; n,_,p=k.partition(':'); a=AP[n]; s=a['sig']
    nm='sh_'+n+('_'+p if p else '')
    lem=nm+''.join(arg(i,t) for i,t in enumerate(ins))
    if a['k']=='p': 
        if o=='T' or n=='plainLabel': core='outp_safe trivial'
        elif n=='quotedLabel': core='outp_safe h1.1'
        else: core=f'outp_safe (({post(o)}) _ ({lem})' .replace(') _ (',f' : ∀ r, _ → Abs.Has _ (.{a["c"]} r)) _ (',1)+')' if False else f'outp_safe (({post(o)} : ∀ r, {posttype(o)} r → Abs.Has ({absx(o)}) (.{a["c"]} r)) _ {("("+lem+")") if " " in lem else lem})'
    else: core=f'out{a["k"]}_safe ({lem}) ({post(o)})'
    if not s: return f'withNone_safe hx ({core})'
    xs=' '.join(f'x{i}' for i in range(len(s)))
    hs=''.join(f' h{i}' for i,c in enumerate(s) if c!='T')
    return f'with{s}_safe hx fun {xs}{hs} => {core}'
from gen_fn import post as fpost
def posttype(o): return fpost(o)
names=[]
for l in re.findall(r'^  \| (\w+)(?: \(p : (\w+)\))?$',src[src.index('inductive BFn'):src.index('\n\n',src.index('inductive BFn'))],re.M): names.append(l)
ENUM={}
out=[head.rstrip('\n')]
for n,p in names:
    ks=[k for k in tr.MONO if k.split(':')[0]==n]
    e=esc(n)
    if not p:
        if not ks: out.append(f'  | {e} => cases h'); assert n in POLY,n; continue
        if n in('string1','xstring'):
            out.append(f'''  | {e} =>
    cases h
    obtain ⟨_, _, rfl, h0, r0⟩ := hasL_cons hx
    obtain ⟨x0, rfl, h0⟩ := has_tok h0
    obtain ⟨_, _, rfl, h1, r1⟩ := hasL_cons r0
    obtain ⟨x1, rfl, h1⟩ := has_nodes h1
    obtain ⟨_, _, rfl, h2, r2⟩ := hasL_cons r1
    obtain ⟨x2, rfl, h2⟩ := has_tok h2
    cases hasL_nil r2
    exact outR_safe (sh_{n} h1.1) (fun _ h => h)'''); continue
        out.append(f'  | {e} => cases h; exact {term(n)}')
    else:
        vals=[k.split(':')[1] for k in ks]
        out.append(f'  | {e} p =>\n    cases p with')
        allv={'LogicalOp':['And','Or'],'LoopType':['While','Until'],'KeywordCmd':['Break','Defined','Next','Redo','Retry','Return','Super','Yield','Zsuper']}[p]
        for v in allv:
            if v in vals: out.append(f'    | {v} => cases h; exact {term(n+":"+v)}')
            else: out.append(f'    | {v} => cases h')
open('/root/work/sh/shfn_part.lean','w').write('\n'.join(out))
tail=open('/root/work/sh/shfn_tail.lean').read()
open('/verif/lean/Verif/Lemmas/ShapeFn.lean','w').write('\n'.join(out)+'\n'+tail)
