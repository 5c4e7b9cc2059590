from spec import *
o=['''import Lean.Elab.Tactic.Basic
import Verif.Spec.Shape
/-!
Sets of kinds, what a node of a given kind is, and what `Shaped` says of each kind of node. Generated from the table in
`Spec/Shape.lean`.
-/
namespace Verif
open Shape

theorem ks_bit (k : NKind) (l : List NKind) (i : NKind) : (ks (k :: l)).testBit i.ctorIdx = (i == k || (ks l).testBit i.ctorIdx) := by
  rw [ks, Nat.testBit_or]
  congr 1
  rw [Nat.one_shiftLeft, Nat.testBit_two_pow]
  by_cases h : i = k
  · subst h; simp
  · have : k.ctorIdx ≠ i.ctorIdx := fun e => h (by rw [← NKind.ofNat_ctorIdx i, ← e, NKind.ofNat_ctorIdx])
    simp [h, this]
theorem has_ks {n : Node} {k : NKind} {l : List NKind} : Has (ks (k :: l)) n ↔ n.kind = k ∨ Has (ks l) n := by
  unfold Has; rw [ks_bit]; simp
theorem has_nil {n : Node} : ¬ Has (ks []) n := by
  unfold Has ks; simp
theorem has_zero {n : Node} : ¬ Has 0 n := by
  unfold Has; simp
theorem has_or {n : Node} {a b : Kinds} : Has (a ||| b) n ↔ Has a n ∨ Has b n := by
  unfold Has; rw [Nat.testBit_or]; simp
theorem has_and {n : Node} {a b : Kinds} : Has (a &&& b) n ↔ Has a n ∧ Has b n := by
  unfold Has; rw [Nat.testBit_and]; simp
theorem has_without {n : Node} {a b : Kinds} : Has (without a b) n ↔ Has a n ∧ ¬ Has b n := by
  unfold Has without
  rw [Nat.testBit_xor, Nat.testBit_and]
  cases a.testBit n.kind.ctorIdx <;> cases b.testBit n.kind.ctorIdx <;> simp

/-- Inclusion of sets. -/
def sub (a b : Kinds) : Bool := a &&& b == a
theorem Has.mono {n : Node} {a b : Kinds} (h : Has a n) (hs : sub a b = true) : Has b n := by
  rw [sub, beq_iff_eq] at hs
  rw [← hs, has_and] at h
  exact h.2
theorem Ok.mono {n : Node} {a b : Kinds} (h : Ok a n) (hs : sub a b = true) : Ok b n := ⟨h.1.mono hs, h.2⟩

/-- The same for a node that may be absent. -/
def OkO (m : Kinds) (o : Option Node) : Prop := ∀ n, o = some n → Ok m n
/-- The same for a list. -/
def OkL (m : Kinds) (l : List Node) : Prop := ∀ n ∈ l, Ok m n

theorem OkO.mono {o : Option Node} {a b : Kinds} (h : OkO a o) (hs : sub a b = true) : OkO b o := fun n hn => (h n hn).mono hs
theorem OkL.mono {l : List Node} {a b : Kinds} (h : OkL a l) (hs : sub a b = true) : OkL b l := fun n hn => (h n hn).mono hs
theorem oko_none {m : Kinds} : OkO m none := nofun
theorem oko_some {m : Kinds} {n : Node} : OkO m (some n) ↔ Ok m n := ⟨fun h => h n rfl, fun h _ e => by cases e; exact h⟩
theorem okl_nil {m : Kinds} : OkL m [] := nofun
theorem okl_cons {m : Kinds} {n : Node} {l : List Node} : OkL m (n :: l) ↔ Ok m n ∧ OkL m l := by
  unfold OkL; simp
theorem okl_append {m : Kinds} {l k : List Node} : OkL m (l ++ k) ↔ OkL m l ∧ OkL m k := by
  unfold OkL; simp only [List.mem_append]
  exact ⟨fun h => ⟨fun n hn => h n (.inl hn), fun n hn => h n (.inr hn)⟩, fun h n hn => hn.elim (h.1 n) (h.2 n)⟩
theorem okl_one {m : Kinds} {n : Node} (h : Ok m n) : OkL m [n] := by
  rw [okl_cons]; exact ⟨h, okl_nil⟩
theorem okl_zero {l : List Node} (h : OkL 0 l) : l = [] := by
  cases l with
  | nil => rfl
  | cons n l => exact absurd (h n (List.mem_cons_self ..)).1 has_zero

theorem shaped_iff {n : Node} : Shaped n ↔ (∀ p ∈ n.fields, Ok p.1 p.2) ∧ n.sized = true :=
  ⟨fun h => by cases h with | mk _ h1 h2 h3 => exact ⟨fun p hp => ⟨h1 p hp, h2 p hp⟩, h3⟩,
    fun h => ⟨n, fun p hp => (h.1 p hp).1, fun p hp => (h.1 p hp).2, h.2⟩⟩

/-- What is said of the children. -/
def AllF (l : List (Kinds × Node)) : Prop := ∀ p ∈ l, Ok p.1 p.2
theorem allF_append {a b : List (Kinds × Node)} : AllF (a ++ b) ↔ AllF a ∧ AllF b := by
  unfold AllF; simp only [List.mem_append]
  exact ⟨fun h => ⟨fun n hn => h n (.inl hn), fun n hn => h n (.inr hn)⟩, fun h n hn => hn.elim (h.1 n) (h.2 n)⟩
theorem allF_one {m : Kinds} {n : Node} : AllF (one m n) ↔ Ok m n := by
  unfold AllF one; simp
theorem allF_opt {m : Kinds} {o : Option Node} : AllF (opt m o) ↔ OkO m o := by
  unfold AllF opt OkO; cases o <;> simp
theorem allF_each {m : Kinds} {l : List Node} : AllF (each m l) ↔ OkL m l := by
  unfold AllF each OkL; simp

/-! ### Nodes of a kind -/
''']
from gen_spec import sp,SZ
NEED=sys.argv[1].split() if len(sys.argv)>1 else KS
def vs(fl): return ' '.join(a if a!='open' else a for a,_ in fl)
byname=dict(CT)
base={}
for c in REF: base[c]={'MlhsP':'Mlhs'}.get(c,c[:-1])
IS=[];INV=[]
for k in KS:
    c=base.get(k,k); fl=byname[c]
    names=' '.join(f'x{i}' for i in range(len(fl)))
    un=', '.join('_' for _ in fl)
    side=''
    if c in sp:
        f,e=sp[c]; i=[a for a,_ in fl].index(f)
        t,thn,els=re.match(r'if (.*) then \.(\w+) else \.(\w+)',e).groups()
        cond=t.replace(f,f'x{i}',1).replace('allDestr','Node.allDestr').replace('headTakesBlock','Node.headTakesBlock')
        side=f' ∧ {cond} = '+('true' if thn==k else 'false')
    prop=f'∃ {names}, n = .{c} {names}{side}'
    IS.append(f'  | .{k} => {prop}')
    INV.append(f'theorem kind_{k} {{n : Node}} (h : n.kind = .{k}) : {prop} := by\n  have := is_kind n; rw [h] at this; exact this')
o.append('/-- What a kind says of a node. -/\ndef NKind.Is (k : NKind) (n : Node) : Prop :=\n  match k with\n'+'\n'.join(IS))
o.append("""theorem is_ite {c : Bool} {a b : NKind} {n : Node} (h1 : c = true → a.Is n) (h2 : c = false → b.Is n) :
    (if c = true then a else b).Is n := by
  cases c
  · exact h2 rfl
  · exact h1 rfl
theorem is_kind (n : Node) : n.kind.Is n := by
  cases n""")
for c,fl in CT:
    un=', '.join('_' for _ in fl)
    if c in sp: o.append(f'  case {c} => exact is_ite (fun h => ⟨{un}, rfl, h⟩) (fun h => ⟨{un}, rfl, h⟩)')
    else: o.append(f'  case {c} => exact ⟨{un}, rfl⟩')
o+=INV
o.append("""
theorem has_of {n : Node} {m : Kinds} {k : NKind} (h : n.kind = k) (hm : m.testBit k.ctorIdx = true) : Has m n := by
  unfold Has; rw [h]; exact hm

open Lean Elab Tactic Meta in
/-- Closes `Has m n` when the kind of `n` and the set `m` are known. -/
elab "has" : tactic => withMainContext do
  let g ← getMainGoal
  let t ← instantiateMVars (← g.getType)
  unless t.isAppOfArity ``Has 2 do throwError "not a goal Has"
  let k ← whnf (mkApp (mkConst ``Node.kind) t.appArg!)
  let hk ← mkEqRefl k
  let h2 := mkApp2 (mkConst ``Nat.testBit) t.appFn!.appArg! (mkApp (mkConst ``NKind.ctorIdx) k)
  let h2 ← mkEq h2 (mkConst ``true)
  unless (← whnf (← mkDecide h2)).isConstOf ``true do throwError "not of these kinds"
  let m ← mkDecideProof h2
  g.assign (mkApp5 (mkConst ``has_of) t.appArg! t.appFn!.appArg! k hk m)
""")
o.append('''
/-! ### What `Shaped` says -/

/-- Unfolding `Shaped` of a constructor. -/
macro "shapes" : tactic => `(tactic|
  (rw [shaped_iff]
   refine (and_congr_left fun _ => (show (∀ p ∈ Node.fields _, Ok p.1 p.2) ↔ AllF _ from Iff.rfl)).trans ?_
   simp only [Node.fields, Node.sized, allF_append, allF_one, allF_opt, allF_each, and_true, and_assoc, true_and]))
''')
for c,fl in CT:
    names=' '.join(f'x{i}' for i in range(len(fl)))
    tys=' '.join(f'{{x{i} : {t}}}' for i,(a,t) in enumerate(fl))
    parts=[]
    for i,(a,t) in enumerate(fl):
        if t in('Node','Option Node','List Node'):
            m='(if Node.allDestr x0 then destrK else mlhsItemK)' if c=='Mlhs' else leanof(FS[c,a])
            parts.append({'Node':'Ok','Option Node':'OkO','List Node':'OkL'}[t]+f' {m} x{i}')
    if c in SZ:
        pat,e=SZ[c]
        for i,(a,t) in enumerate(fl): 
            if a in pat: e=re.sub(rf'\b{a}\b',f'x{i}',e)
        e=e.replace('held','Node.held')
        parts.append(f'({e}) = true')
    if not parts:
        o.append(f'theorem shaped_{c} {tys} : Shaped (.{c} {names}) := shaped_iff.2 ⟨nofun, rfl⟩')
    else:
        o.append(f"theorem shaped_{c} {tys} :\n    Shaped (.{c} {names}) ↔ {' ∧ '.join(parts)} := by shapes")
o.append('\nend Verif\n')
if __name__=='__main__': open('/verif/lean/Verif/Lemmas/ShapeKinds.lean','w').write('\n'.join(o))
