import re
src=open('/verif/lean/Verif/Model/Grammar/Values.lean').read()
i=src.index('def applyFn'); j=src.index('/-- How a value is put together')
rows=re.findall(r'^  \| \.(\w+)( p)? => (with\w+) \(?(?:fun ([\w ]+) => )?(out\w) \.(\w+) (.*)$',src[i:j],re.M)
T0='(h.1.text rfl)'; T1='(h.2.1.text rfl)'; T2='(h.2.2.1.text rfl)'; T3='(h.2.2.2.1.text rfl)'
O1='(fun t e => (h.2.1 t e).text rfl)'
S='(fun t e => by cases e; exact '
L={}
for f in 'integer float rational complex unaryNum lvar ivar gvar cvar backRef arg shadowarg optarg unaryOp'.split(): L[f]=f'{f}_calm {T0}'
L['const_']=f'const_calm {T0}'
L['constFetch']=f'constFetch_calm {T2}'
L['constGlobal']=f'constGlobal_calm {T1}'
for f in 'defMethod binaryOp opAssign'.split(): L[f]=f'{f}_calm {T1}'
L['defEndless']=f'defEndlessMethod_calm {T1}'
for f in 'defSingleton defEndlessSingleton'.split(): L[f]=f'{f}_calm {T3}'
for f in 'attrAsgn attrAsgnMasgn'.split(): L[f]=f'{f}_calm {T2}'
for f in 'restarg kwrestarg blockarg'.split(): L[f]=f'{f}_calm {O1}'
for f in 'kwarg kwoptarg'.split(): L[f]=f'{f}_calm {T0} (h.1.label rfl).1 (h.1.label rfl).2'
L['nthRef']=f'nthRef_calm {T0} (h.1.ref rfl)'
L['matchVar']=f'matchVar_calm {T0} (h.1.name rfl)'
L['matchRest']='matchRest_calm (fun t e => ⟨(h.2.1 t e).text rfl, (h.2.1 t e).name rfl⟩)'
L['regexp']='regexp_calm (h.2.2.1.text rfl) (h.2.2.1.opts rfl).1 (h.2.2.1.opts rfl).2'
L['pairKeyword']='pairKeyword_calm (h.1.label rfl).1 (h.1.label rfl).2'
L['pairLabel']='pairLabel_calm (h.1.text rfl) (h.1.name rfl) (h.1.label rfl).1 (h.1.label rfl).2'
L['pairQuoted']='pairQuoted_calm (h.2.2.1.quote rfl)'
L['matchPair']='matchPair_calm (fun t e => by subst e; exact h.1.label rfl) (fun a l t e => by subst e; exact h.1.quote rfl)'
L['kwargName']='(kwargName_calm (h.1.name rfl)).any'
L['endlessName']='endlessName_calm.any'
sel=lambda t: f'callMethod_calm (fun t e => by cases e; exact {t}) (fun e => by first | rfl | cases e)'
for f in 'callFn callFnParen'.split(): L[f]=sel('h.1.text rfl')
for f in 'callDot callDotParen callDotOpt'.split(): L[f]=sel('h.2.2.1.text rfl')
L['callParen']='callMethod_calm (fun t e => by cases e) (fun e => by cases e)'
L['block']='block_calm (hb _ rfl _ rfl).1 (hb _ rfl _ rfl).2.1 (hb _ rfl _ rfl).2.2'
L['lambda']='block_calm (fun _ _ _ e => by cases e) (fun _ _ _ e => by cases e) (fun _ _ _ e => by cases e)'
L['keyword']='keywordCmd_calm fun e => hk (by rw [e]; exact .inl rfl) _ (by simp)'
L['keywordParen']='keywordCmd_calm fun e => hk (by rw [e]; exact .inr rfl) _ (by simp)'
L['checked']='checked_calm'
for f in ['notOp','notParen','notEmpty']: L[f]='notOp_calm'
for f in ['ifMod','unlessMod']: L[f]='conditionMod_calm'
L['logical']='logicalOp_calm'
L['rescueModOpt']='rescueMod_calm'; L['rescueMod']='rescueMod!_calm'
L['bodystmt']='beginBody_calm'
L['strings']='strings_calm'
L['string1']='string1_calm hi'; L['xstring']='heredocDedent_calm hi'
L['args']='args_calm'
out=[];names=[]
for f,p,w,xs,o,c,body in rows:
    names.append(f)
    if o=='outp': t='outp_calm'
    else:
        t=f"{o}_calm ({L.get(f,f+'_calm')})"
    if f=='matchLabel':
        out.append(f"""  case matchLabel =>
    dsimp only [applyFn, withK]
    split
    · next x0 =>
      cases x0 with
      | PlainLabel t => exact outB_calm (matchHashVar_calm (h.1.text rfl) (h.1.name rfl) (h.1.label rfl).1 (h.1.label rfl).2)
      | QuotedLabel a l t => exact absurd rfl (hm rfl a l t)
    · exact illTyped_calm""")
        continue
    if f=='args': t='outM_calm (args_calm.index rfl)'
    g='«'+f+'»' if f in('alias','begin','case') else f
    out.append(f"""  case {g}{' k' if p else ''} =>
    dsimp only [applyFn, {w}]
    split
    · exact {t}
    · exact illTyped_calm""")
print(len(rows))
open('/verif/lean/Verif/Lemmas/CalmFn.lean','w').write("""import Verif.Lemmas.TokTable
/-!
A call of a function of the builder does not panic but by `unreachable!`, when its arguments have what it relies on.
-/
namespace Verif
open Builder Grammar

variable {i : Prop} {p : Bool}

theorem illTyped_calm : BldR.Calm i p illTyped Any := BldR.calm_lift BldM.calm_panic
theorem outp_calm {c : α → Atom} {a : α} : BldR.Calm i p (outp c a) Any := BldR.calm_pure trivial
theorem outR_calm {c : α → Atom} {r : Res α} (h : Res.Calm i r Any) : BldR.Calm i p (outR c r) Any :=
  BldR.calm_bind (BldR.calm_lift (BldM.calm_liftR h)) fun _ _ => BldR.calm_pure trivial
theorem outM_calm {c : α → Atom} {r : BldM α} (h : BldM.Calm i p r Any) : BldR.Calm i p (outM c r) Any :=
  BldR.calm_bind (BldR.calm_lift h) fun _ _ => BldR.calm_pure trivial
theorem outB_calm {c : α → Atom} {r : BldR α} (h : BldR.Calm i p r Any) : BldR.Calm i p (outB c r) Any :=
  BldR.calm_bind h fun _ _ => BldR.calm_pure trivial
theorem checked_calm : BldR.Calm i p (valueExpr n *> pure n) Any := by
  rw [show (valueExpr n *> pure n : BldR Node) = (valueExpr n >>= fun _ => pure n) from rfl]
  exact BldR.calm_bind valueExpr_calm fun _ _ => BldR.calm_pure trivial
theorem BldM.Calm.index {m : BldM α} {P : α → Prop} (h : BldM.Calm True p m P) (hi : i) : BldM.Calm i p m P := by
  intro s hs
  have := h s hs
  rcases hm : m s with e | q
  · rw [hm] at this
    rcases this with h | h
    · exact .inl h
    · exact .inr ⟨hi, h.2⟩
  · rw [hm] at this; exact this

/-- The jump has an argument. -/
def HasArgs (n : Node) : Prop :=
  (∀ as k x, n = .Return as k x → as ≠ []) ∧ (∀ as k x, n = .Next as k x → as ≠ []) ∧ ∀ as k x, n = .Break as k x → as ≠ []

theorem fn_calm {ext : BldExt} {indent : Int} {f : BFn} {xs : List Atom} (hi : 0 ≤ indent) (h : THasP f.needs xs)
    (hb : ∀ r, f = .block → ∀ n, xs = .node n :: r → HasArgs n)
    (hk : f = .keyword .Defined ∨ f = .keywordParen .Defined → ∀ l, .nodes l ∈ xs → l ≠ [])
    (hm : f = .matchLabel → ∀ a l t, xs ≠ [.label (.QuotedLabel a l t)]) :
    BldR.Calm (f = .args) f.declares (applyFn ext indent f xs) Any := by
  cases f
"""+"\n".join(out)+"\nend Verif\n")
