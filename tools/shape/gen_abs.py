from gen_fn import *
SIGS=sorted({a['sig'] for a in AP.values()})
AT={'T':'tok','O':'otok','N':'node','P':'onode','L':'nodes','A':'args','K':'label','I':'tail','G':'parens','E':'exc'}
PAR={'T':[],'O':['a','b'],'N':['m'],'P':['m','o'],'L':['m','o'],'A':['m'],'K':['m'],'I':['m'],'G':['m'],'E':['m']}
PT={'a':'Bool','b':'Bool','m':'Kinds','o':'Bool'}
out=[r'''import Verif.Lemmas.ShapeBuild3
/-!
Descriptions of semantic values by kinds of nodes (`Abs`), and the functions that take apart a list of values by such descriptions.
-/
namespace Verif
open Builder Shape Grammar

/-- What is known of a component of a semantic value. -/
inductive Abs where
  | tok
  /-- may it be absent, may it be present -/
  | otok (no yes : Bool)
  | node (m : Kinds)
  /-- `opt`: it may be absent -/
  | onode (m : Kinds) (opt : Bool)
  /-- `ne`: it is not empty -/
  | nodes (m : Kinds) (ne : Bool)
  | args (m : Kinds)
  | label (m : Kinds)
  | tail (m : Kinds)
  | parens (m : Kinds)
  | exc (m : Kinds)
  /-- there is none -/
  | never
  deriving DecidableEq

/-- The value is as described. -/
def Abs.Has : Abs → Atom → Prop
  | .tok, .tok _ => True
  | .otok a b, .otok t => (t = none → a = true) ∧ (t.isSome = true → b = true)
  | .node m, .node n => Ok m n
  | .onode m o, .onode n => OkO m n ∧ (o = false → n.isSome = true)
  | .nodes m e, .nodes l => OkL m l ∧ (e = true → l ≠ [])
  | .args m, .args a => ArgsOk m a
  | .label m, .label k => LabelOk m k
  | .tail m, .tail p => OkO m p.2
  | .parens m, .parens p => OkL m p.2.1
  | .exc m, .exc p => OkO m p.2
  | _, _ => False
/-- The same for lists. -/
def HasL : List Abs → List Atom → Prop
  | [], [] => True
  | a :: as, x :: xs => a.Has x ∧ HasL as xs
  | _, _ => False

/-- Implication. -/
def Abs.le : Abs → Abs → Bool
  | .tok, .tok => true
  | .otok a b, .otok c d => (!a || c) && (!b || d)
  | .node m, .node k => sub m k
  | .onode m o, .onode k p => sub m k && (!o || p)
  | .nodes m e, .nodes k f => sub m k && (e || !f)
  | .args m, .args k => sub m k
  | .label m, .label k => sub m k
  | .tail m, .tail k => sub m k
  | .parens m, .parens k => sub m k
  | .exc m, .exc k => sub m k
  | .never, _ => true
  | _, _ => false
/-- The same for lists. -/
def leL : List Abs → List Abs → Bool
  | [], [] => true
  | a :: as, b :: bs => a.le b && leL as bs
  | _, _ => false

theorem hasL_nil {xs : List Atom} (h : HasL [] xs) : xs = [] := by
  cases xs with
  | nil => rfl
  | cons => exact absurd h id
theorem hasL_cons {a : Abs} {as : List Abs} {xs : List Atom} (h : HasL (a :: as) xs) : ∃ y ys, xs = y :: ys ∧ a.Has y ∧ HasL as ys := by
  cases xs with
  | nil => exact absurd h id
  | cons y ys => exact ⟨y, ys, rfl, h⟩
theorem never_has {x : Atom} : ¬ Abs.never.Has x := by cases x <;> exact id
''']
inv={'tok':('',''),}
for c,k in AT.items():
    p=' '.join(PAR[c]); ps=''.join(f'{{{v} : {PT[v]}}} ' for v in PAR[c])
    out.append(f'''theorem has_{k} {ps}{{x : Atom}} (h : (Abs.{k}{' '+p if p else ''}).Has x) : ∃ y, x = .{k} y ∧ (Abs.{k}{' '+p if p else ''}).Has (.{k} y) := by
  cases x with
  | {k} y => exact ⟨y, rfl, h⟩
  | _ => exact absurd h id''')
out.append(r'''
theorem LabelOk.mono {k : PKwLabel} {a b : Kinds} (h : LabelOk a k) (hs : sub a b = true) : LabelOk b k := by
  cases k with
  | PlainLabel => trivial
  | QuotedLabel => exact OkL.mono h hs
theorem ArgsOk.mono {k : ArgsType} {a b : Kinds} (h : ArgsOk a k) (hs : sub a b = true) : ArgsOk b k := by
  cases k with
  | Args => exact OkO.mono h hs
  | Numargs => trivial
theorem Abs.Has.le {a b : Abs} {x : Atom} (h : a.Has x) (hl : a.le b = true) : b.Has x := by
  unfold Abs.le at hl
  split at hl
  · exact h
  · rename_i a b c d
    obtain ⟨y, rfl, h1, h2⟩ := has_otok h
    cases a <;> cases b <;> cases c <;> cases d <;> simp at hl <;> refine ⟨fun h => ?_, fun h => ?_⟩ <;>
      first | rfl | exact h1 h | exact h2 h
  · obtain ⟨y, rfl, h⟩ := has_node h; exact Ok.mono h hl
  · rename_i m o k p
    rw [Bool.and_eq_true] at hl
    obtain ⟨y, rfl, h1, h2⟩ := has_onode h
    refine ⟨h1.mono hl.1, fun e => h2 ?_⟩
    rw [e] at hl
    simpa using hl.2
  · rename_i m o k p
    rw [Bool.and_eq_true] at hl
    obtain ⟨y, rfl, h1, h2⟩ := has_nodes h
    refine ⟨h1.mono hl.1, fun e => h2 ?_⟩
    rw [e] at hl
    simpa using hl.2
  · obtain ⟨y, rfl, h⟩ := has_args h; exact ArgsOk.mono h hl
  · obtain ⟨y, rfl, h⟩ := has_label h; exact LabelOk.mono h hl
  · obtain ⟨y, rfl, h⟩ := has_tail h; exact OkO.mono h hl
  · obtain ⟨y, rfl, h⟩ := has_parens h; exact OkL.mono h hl
  · obtain ⟨y, rfl, h⟩ := has_exc h; exact OkO.mono h hl
  · exact absurd h never_has
  · cases hl
theorem HasL.le {as bs : List Abs} {xs : List Atom} (h : HasL as xs) (hl : leL as bs = true) : HasL bs xs := by
  induction as generalizing bs xs with
  | nil =>
    cases bs with
    | nil => exact h
    | cons => cases hl
  | cons a as ih =>
    cases bs with
    | nil => cases hl
    | cons b bs =>
      obtain ⟨y, ys, rfl, h1, h2⟩ := hasL_cons h
      rw [leL, Bool.and_eq_true] at hl
      exact ⟨h1.le hl.1, ih h2 hl.2⟩

variable {g : Prop} {Q : Atom → Prop}

theorem outp_safe {α : Type} {c : α → Atom} {a : α} (h : Q (c a)) : BldR.Safe g (outp c a) Q := BldR.safe_pure h
theorem outR_safe {α : Type} {c : α → Atom} {P : α → Prop} {r : Res α} (h : Res.Safe g r P) (hc : ∀ a, P a → Q (c a)) :
    BldR.Safe g (outR c r) Q :=
  BldR.safe_bind (BldR.safe_lift (BldM.safe_liftR h)) fun a ha => BldR.safe_pure (hc a ha)
theorem outM_safe {α : Type} {c : α → Atom} {P : α → Prop} {r : BldM α} (h : BldM.Safe g r P) (hc : ∀ a, P a → Q (c a)) :
    BldR.Safe g (outM c r) Q :=
  BldR.safe_bind (BldR.safe_lift h) fun a ha => BldR.safe_pure (hc a ha)
theorem outB_safe {α : Type} {c : α → Atom} {P : α → Prop} {r : BldR α} (h : BldR.Safe g r P) (hc : ∀ a, P a → Q (c a)) :
    BldR.Safe g (outB c r) Q :=
  BldR.safe_bind h fun a ha => BldR.safe_pure (hc a ha)

/-! ### Taking a list apart -/
''')
for s in SIGS:
    if not s: continue
    bs=[];abs_=[];hy=[];ty=[]
    for i,c in enumerate(s):
        ps=[f'{v}{i}' for v in PAR[c]]
        bs+= [f'{{{v}{i} : {PT[v]}}}' for v in PAR[c]]
        A='Abs.'+AT[c]+''.join(' '+p for p in ps)
        abs_.append(A); ty.append(TY[c] if ' × ' not in TY[c] else '('+TY[c]+')')
        if c!='T': hy.append(f'Abs.Has ({A}) (.{AT[c]} x{i})')
    n=len(s)
    xs=' '.join(f'x{i}' for i in range(n))
    K=' → '.join(ty)+' → BldR Atom'
    pf=[]
    cur='h'
    for i,c in enumerate(s):
        pf.append(f'  obtain ⟨_, _, rfl, h{i}, r{i}⟩ := hasL_cons {"h" if i==0 else f"r{i-1}"}')
        pf.append(f'  obtain ⟨x{i}, rfl, h{i}⟩ := has_{AT[c]} h{i}')
    pf.append(f'  cases hasL_nil r{n-1}')
    pf.append('  exact hk '+xs+''.join(f' h{i}' for i,c in enumerate(s) if c!='T'))
    out.append(f'''theorem with{s}_safe {{k : {K}}} {' '.join(bs)} {{xs : List Atom}} (h : HasL [{', '.join(abs_)}] xs)
    (hk : ∀ {xs}, {''.join(y+' → ' for y in hy)}BldR.Safe g (k {xs}) Q) : BldR.Safe g (with{s} k xs) Q := by
'''+'\n'.join(pf))
out.append('''theorem withNone_safe {k : BldR Atom} {xs : List Atom} (h : HasL [] xs) (hk : BldR.Safe g k Q) : BldR.Safe g (withNone k xs) Q := by
  cases hasL_nil h
  exact hk

end Verif
''')
open('/verif/lean/Verif/Lemmas/ShapeAbs.lean','w').write('\n'.join(out))
