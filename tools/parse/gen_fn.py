import re
src=open('/verif/lean/Verif/Model/Grammar/Values.lean').read()
body=src[src.index("def applyFn"):src.index("/-- How a value is put together")]
cases=re.findall(r"^  \| \.(\w+!?)( p)? => (with\w+) \((?:fun [^=]*=> )?(outp|outR|outM|outB) \.(\w+) \((.*)\)\)\s*$",body,re.M)
lines=[l for l in body.split("\n") if l.startswith("  | .")]
assert len(cases)==len(lines),(len(cases),len(lines))
qu={'matchOp':'he','accessible':'hn','pairLabel':'hn','assignable':'he','matchVar':'he hp','matchRest':'he hp','matchLabel':'he hp','matchPair':'hk'}
hyp={'hn':'(ha.1 (by decide))','he':'(ha.2.1 (by decide) (by decide))','hp':'(ha.2.2.1 (by decide))','hk':'(ha.2.2.2 (by decide))'}
spec={'checked':'checked_steps','argsType':'argsType_steps','logical':'logicalOp_steps','notOp':'notOp_steps','notParen':'notOp_steps','notEmpty':'notOp_steps','defEndless':'defEndlessMethod_steps','defEndlessSingleton':'defEndlessSingleton_steps','lambda':'block_steps','keyword':'keywordCmd_steps','keywordParen':'keywordCmd_steps','regexp':'regexp_steps'}
out=[]
o=out.append
o('''import Verif.Lemmas.ParseSteps
/-!
What a call of a function of the builder does to the tables, and the kind of its result.
-/
namespace Verif
open Builder Grammar

/-- The tables a function may change. -/
def Grammar.BFn.touches : BFn → List Dim
  | .accessible | .pairLabel => [.env, .num]
  | .assignable | .matchOp => [.env]
  | .matchVar | .matchRest | .matchLabel => [.env, .pv]
  | .matchPair => [.pk]
  | _ => []

/-- The kinds of atoms. -/
inductive Grammar.AK where
  | tok | otok | node | onode | nodes | args | label | tail | parens | exc
deriving DecidableEq, Repr
/-- The kind of an atom. -/
def Grammar.Atom.ak : Atom → AK
  | .tok _ => .tok
  | .otok _ => .otok
  | .node _ => .node
  | .onode _ => .onode
  | .nodes _ => .nodes
  | .args _ => .args
  | .label _ => .label
  | .tail _ => .tail
  | .parens _ => .parens
  | .exc _ => .exc
/-- The kind of the result of a function. -/
def Grammar.BFn.res : BFn → AK''')
for n,p,w,oo,k,b in cases:
    if k!='node': o(f"  | .{n}{' _' if p else ''} => .{k}")
o("  | _ => .node")
o('''
variable {R : BState → BState → Prop} [Frame R]

omit [Frame R] in
theorem illTyped_steps : BldR.Steps R illTyped := by intro s a s' h; cases h
theorem outp_steps {c : α → Atom} {a : α} : BldR.Steps R (outp c a) := BldR.steps_pure
theorem outR_steps {c : α → Atom} {r : Res α} : BldR.Steps R (outR c r) :=
  BldR.steps_bind (BldR.steps_lift BldM.steps_liftR) fun _ => BldR.steps_pure
theorem outM_steps {c : α → Atom} {r : BldM α} (h : BldM.Steps R r) : BldR.Steps R (outM c r) :=
  BldR.steps_bind (BldR.steps_lift h) fun _ => BldR.steps_pure
theorem outB_steps {c : α → Atom} {r : BldR α} (h : BldR.Steps R r) : BldR.Steps R (outB c r) :=
  BldR.steps_bind h fun _ => BldR.steps_pure

/-- The relation allows the changes the function may make. -/
def Allows (R : BState → BState → Prop) (ds : List Dim) : Prop :=
  (Dim.num ∈ ds → AllowsNum R) ∧ (Dim.env ∈ ds → Dim.num ∉ ds → AllowsEnv R) ∧ (Dim.pv ∈ ds → AllowsPv R) ∧ (Dim.pk ∈ ds → AllowsPk R)

theorem fn_steps {ext : BldExt} {indent : Int} {f : BFn} {xs : List Atom} (ha : Allows R f.touches) :
    BldR.Steps R (applyFn ext indent f xs) := by
  cases f''')
for n,p,w,oo,k,b in cases:
    if oo in('outp','outR'): t=oo+'_steps'
    else:
        l=spec.get(n,n+'_steps')
        if n in qu: l='('+l+' '+' '.join(hyp[x] for x in qu[n].split())+')'
        t=f"{oo}_steps {l}"
    o(f"  case {n}{' p' if p else ''} =>\n    dsimp only [applyFn, {w}]\n    split\n    · exact {t}\n    · exact illTyped_steps")
o('''
theorem illTyped_ak {s : BState} {a : Atom} {s' : BState} : illTyped.run s ≠ .ok (.ok a, s') := nofun
theorem outB_ak {α : Type} {c : α → Atom} {r : BldR α} {k : AK} (hc : ∀ a, (c a).ak = k) {s s' : BState} {a : Atom}
    (h : (outB c r).run s = .ok (.ok a, s')) : a.ak = k := by
  unfold outB at h
  rw [BldR.run_bind] at h
  rcases hm : r.run s with e | ⟨x, s1⟩
  · rw [hm] at h; cases h
  · rw [hm] at h
    cases x with
    | error e => cases h
    | ok x => cases h; exact hc x
theorem outM_ak {α : Type} {c : α → Atom} {r : BldM α} {k : AK} (hc : ∀ a, (c a).ak = k) {s s' : BState} {a : Atom}
    (h : (outM c r).run s = .ok (.ok a, s')) : a.ak = k := outB_ak (r := (r : BldR α)) hc h
theorem outR_ak {α : Type} {c : α → Atom} {r : Res α} {k : AK} (hc : ∀ a, (c a).ak = k) {s s' : BState} {a : Atom}
    (h : (outR c r).run s = .ok (.ok a, s')) : a.ak = k := outB_ak (r := ((liftR r : BldM α) : BldR α)) hc h
theorem outp_ak {α : Type} {c : α → Atom} {r : α} {k : AK} (hc : ∀ a, (c a).ak = k) {s s' : BState} {a : Atom}
    (h : (outp c r).run s = .ok (.ok a, s')) : a.ak = k := outB_ak (r := (pure r : BldR α)) hc h

/-- The kind of the result. -/
theorem fn_ak {ext : BldExt} {indent : Int} {f : BFn} {xs : List Atom} {s s' : BState} {a : Atom}
    (h : (applyFn ext indent f xs).run s = .ok (.ok a, s')) : a.ak = f.res := by
  cases f''')
for n,p,w,oo,k,b in cases:
    o(f"  case {n}{' p' if p else ''} =>\n    dsimp only [applyFn, {w}] at h\n    split at h\n    · exact {oo}_ak (c := Atom.{k}) (fun _ => rfl) h\n    · exact absurd h illTyped_ak")
o("\nend Verif")
open('/verif/lean/Verif/Lemmas/ParseFn.lean','w').write("\n".join(out)+"\n")
