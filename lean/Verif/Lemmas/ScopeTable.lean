import Verif.Lemmas.ParseTable
import Verif.Spec.Calls
/-!
A checker for scopes, run over the whole table: every variable that a production declares is bound by its value, and every
variable its value mentions was declared.

A level of the tables is described by the parts of values (`(n, i)` is component `i` of `$n`) whose bindings may be declared in
it, and by whether it still has the variables from before the production.
-/
namespace Verif.Grammar
open Builder

/-- How a nonterminal changes the tables. -/
inductive SK where
  /-- what it declares is bound in its value -/
  | ok
  /-- it declares nothing that stays -/
  | sealed
  /-- it opens a scope -/
  | head
  /-- its value is a variable not yet looked up; nothing is declared -/
  | raw
  /-- it declares the name in its token -/
  | name
  /-- as `ok`; the value has no right-hand side yet -/
  | bare
  /-- as `ok`; when something is bound then ordinary parameters are noted -/
  | params
deriving DecidableEq

/-- The kind of a nonterminal. -/
def sk (x : NT) : SK :=
  if [NT.def_name, NT.defn_head, NT.defs_head].contains x then .head
  else if [NT.brace_body, NT.do_body, NT.brace_block, NT.do_block, NT.cmd_brace_block].contains x then .sealed
  else if [NT.user_variable, NT.keyword_variable].contains x then .raw
  else if [NT.f_norm_arg, NT.f_arg_asgn, NT.f_label].contains x then .name
  else if [NT.lhs, NT.var_lhs].contains x then .bare
  else if [NT.opt_block_param, NT.block_param_def, NT.f_larglist].contains x then .params
  else .ok

/-- Component `i` of `$n`. -/
abbrev Pos := Nat × Nat

/-- Where a variable may have been declared: before the production, or with one of these parts. -/
structure Lv where
  base : Bool
  S : List Pos
deriving DecidableEq
/-- Nowhere. -/
def Lv.none : Lv := ⟨false, []⟩
/-- With these parts too. -/
def Lv.add (l : Lv) (ps : List Pos) : Lv := { l with S := ps ++ l.S }
/-- In either. -/
def Lv.union (a b : Lv) : Lv := ⟨a.base || b.base, a.S ++ b.S⟩
/-- Without these parts. -/
def Lv.minus (l : Lv) (cov : List Pos) : Lv := { l with S := l.S.filter fun p => !cov.contains p }

/-- A level of numbered parameters: ordinary parameters are noted, or they are when one of these parts binds something. -/
structure Nm where
  ord : Bool
  G : List Pos

/-- What is known of `$n`. -/
structure Fd where
  raw : Bool := false
  bare : Bool := false
  /-- a block can be attached to it without loss -/
  fits : Bool := false
  /-- the second part is absent when the first is -/
  pair : Bool := false
  ak : List AK
  ctx : Lv

/-- The tables and the values so far. -/
structure SS where
  env : List Lv
  num : List Nm
  K : List Fd

/-- What is known of the value of an expression. -/
structure ER where
  /-- what these parts bind, it binds -/
  cov : List Pos := []
  /-- it binds nothing else, unless `own` -/
  used : List Pos := []
  /-- where the variables it mentions were declared -/
  req : Lv := Lv.none
  /-- or they are declared at the moment -/
  acc : Bool := false
  /-- it declares what it binds -/
  grow : Bool := false
  /-- a variable not yet looked up -/
  raw : Bool := false
  tok : Bool := false
  bare : Bool := false
  own : Bool := false
  fits : Bool := false
  /-- a list of one node -/
  one : Bool := false

/-- Parts side by side. -/
def ER.join (a b : ER) : ER :=
  { cov := a.cov ++ b.cov, used := a.used ++ b.used, req := a.req.union b.req, acc := a.acc || b.acc, grow := a.grow || b.grow,
    own := a.own || b.own }
/-- The nodes side by side. -/
def joinN : List ER → ER
  | [] => {}
  | r :: rs => if r.tok then joinN rs else r.join (joinN rs)

/-- The arguments with these numbers. -/
def pick (is : List Nat) : Nat → List α → List α
  | _, [] => []
  | k, r :: rs => if is.contains k then r :: pick is (k + 1) rs else pick is (k + 1) rs
/-- The others. -/
def drop (is : List Nat) : Nat → List α → List α
  | _, [] => []
  | k, r :: rs => if is.contains k then drop is (k + 1) rs else r :: drop is (k + 1) rs

/-- The arguments that are in a scope of their own, and whether it is closed. -/
def inside : BFn → Option (List Nat × Bool)
  | .block => some ([2, 3], false)
  | .lambda => some ([1, 3], false)
  | .defClass => some ([4], true)
  | .defSclass => some ([3], true)
  | .defModule => some ([2], true)
  | .defMethod => some ([2, 3], true)
  | .defSingleton => some ([4, 5], true)
  | .defEndless => some ([2, 4], true)
  | .defEndlessSingleton => some ([4, 6], true)
  | _ => none

/-- The argument that is the name bound. -/
def bound : BFn → Option Nat
  | .arg | .optarg | .kwarg | .kwoptarg | .shadowarg => some 0
  | .restarg | .kwrestarg | .blockarg => some 1
  | _ => none

/-- The two parts of an `ensure`. -/
def pairAt (K : List Fd) : Ex → Ex → Bool
  | .fld n 0, .fld m 1 => n == m && (match K[n - 1]? with
    | some fd => fd.pair
    | none => false)
  | _, _ => false

/-- For a block: it can be attached. -/
def firstFits (f : BFn) (rs : List ER) : Bool :=
  match f, rs with
  | .block, r :: _ => r.fits
  | .block, [] => false
  | _, _ => true

/-- A function on parts. -/
def fnScan (st : SS) (f : BFn) (es : List Ex) (rs : List ER) : Option ER :=
  let all := joinN rs
  if all.grow && all.acc then none else
  match f with
  | .accessible => match rs with
    | [r] => if r.tok || r.grow then none else some { cov := r.cov, used := r.used, own := r.own, req := r.req, acc := true }
    | _ => none
  | .assignable => match rs with
    | [r] => if r.tok || r.acc then none else
      some { cov := r.cov, used := r.used, req := r.req, grow := true, own := true, bare := true }
    | _ => none
  | f =>
  if rs.any (·.raw) then none else
  match inside f with
  | some (is, static) =>
    let inn := joinN (pick is 0 rs)
    let out := joinN (drop is 0 rs)
    if all.acc || all.grow then none else
    if !firstFits f rs then none else
    let left := inn.req.minus inn.cov
    if static then (if left = Lv.none then some out else none)
    else some { out with req := out.req.union left }
  | none =>
  match bound f with
  | some k => match rs[k]? with
    | some r => if r.tok then some { all with cov := r.cov ++ all.cov, own := true } else none
    | none => none
  | none =>
  match f with
  | .someT | .endlessName | .kwargName => match rs with
    | [r] => if r.tok then some { cov := r.cov, used := r.used, own := r.own, tok := true } else none
    | _ => none
  | .noneT => some { tok := true }
  | .lvar => some { raw := true }
  | .pairLabel => some { acc := true }
  | .matchVar | .matchRest | .matchLabel | .matchOp => if all.acc then none else some { all with grow := true, own := true }
  | .argsType => match es, st.num with
    | [.fld n i], nm :: _ => if nm.ord || nm.G.contains (n, i) then some all else none
    | _, _ => none
  | .assign => match rs with
    | r :: _ => if r.bare then some all else none
    | _ => none
  | .keyword .Redo | .keyword .Retry | .keyword .Zsuper | .keywordParen .Redo | .keywordParen .Retry | .keywordParen .Zsuper =>
    if all.grow then none else some { all with cov := [], req := Lv.none }
  | .keyword .Defined => match rs with
    | [_, r] => if r.one then some all else none
    | _ => none
  | .keywordParen .Defined => match rs with
    | [_, _, r, _] => if r.one then some all else none
    | _ => none
  | .bodystmt => match es with
    | [_, _, e, e'] => if pairAt st.K e e' then some all else none
    | _ => none
  | .bodystmtElse => match es with
    | [_, _, _, _, e, e'] => if pairAt st.K e e' then some all else none
    | _ => none
  | .single => some { all with one := true }
  | .indexAsgn | .attrAsgn | .constOpAssignable => some { all with bare := true }
  | .callFn | .callDot | .callDotOpt => some { all with fits := true }
  | _ => some all

/-- A component of a value. -/
def fldScan (st : SS) (n i : Nat) : Option ER :=
  match st.K[n - 1]? with
  | some fd => match fd.ak[i]? with
    | some k =>
      let tok := k == .tok || k == .otok
      let req := if tok || fd.raw then Lv.none else fd.ctx
      some { cov := [(n, i)], used := [(n, i)], req, raw := fd.raw, tok, bare := fd.bare, fits := fd.fits }
    | none => none
  | none => none

mutual
/-- An expression. -/
def Ex.scan (st : SS) : Ex → Option ER
  | .fld n i => fldScan st n i
  | .call f es => match exScan st es with
    | some rs => fnScan st f es rs
    | none => none
/-- A list. -/
def exScan (st : SS) : List Ex → Option (List ER)
  | [] => some []
  | e :: es => match e.scan st with
    | some r => match exScan st es with
      | some rs => some (r :: rs)
      | none => none
    | none => none
end

/-- `$$`. -/
def outScan (st : SS) : ValOut → Option (List ER)
  | .copy n => match st.K[n - 1]? with
    | some fd => exScan st ((List.range fd.ak.length).map (Ex.fld n))
    | none => none
  | .mk es => exScan st es

/-- A write. -/
def writeS (st : SS) : Write → SS
  | .declare k => { st with env := match st.env with
    | l :: r => l.add [(k, 0)] :: r
    | [] => [] }
  | .ordinary => { st with num := match st.num with
    | _ :: r => ⟨true, []⟩ :: r
    | [] => [] }
  | .ordinaryIf k => { st with num := match st.num with
    | l :: r => { l with G := (k, 0) :: l.G } :: r
    | [] => [] }
  | _ => st
/-- An operation. -/
def opSc (st : SS) : Op → Option SS
  | .envStatic => some { st with env := Lv.none :: st.env }
  | .envDynamic => match st.env with
    | l :: r => some { st with env := l :: l :: r }
    | [] => none
  | .envPop => match st.env with
    | _ :: l :: r => some { st with env := l :: r }
    | _ => none
  | .numPush _ => some { st with num := ⟨false, []⟩ :: st.num }
  | .numPop => match st.num with
    | _ :: l :: r => some { st with num := l :: r }
    | _ => none
  | _ => some st
/-- Several. -/
def opsSc : SS → List Op → Option SS
  | st, [] => some st
  | st, op :: ops => match opSc st op with
    | some st => opsSc st ops
    | none => none

/-- The parts whose bindings count for a kind of nonterminal. -/
def partsOf (k : SK) (n : Nat) (ak : List AK) : List Pos :=
  ((List.range ak.length).filter fun i => k == .name || !(ak[i]? == some .tok || ak[i]? == some .otok)).map fun i => (n, i)

/-- The end of a production. -/
def finishS (k : SK) (ev en : SS) (late : Bool) (rs : List ER) : Bool :=
  let all := joinN rs
  let cov := if k = .name then rs.flatMap (·.cov) else all.cov
  let has := fun p => cov.contains p
  !(all.grow && all.acc) && !(late && (all.grow || all.acc)) &&
  (if k = .raw then rs.all (fun r => r.raw || (r.req == Lv.none && !r.acc))
    else !rs.any (·.raw) && all.req.S.all has && (!all.acc || (match ev.env with
      | l :: _ => l.S.all has
      | [] => false))) &&
  (match k with
    | .head => match en.env, en.num with
      | [a, b], [_, _] => a == Lv.none && !all.grow && b.S.all has
      | _, _ => false
    | _ => match en.env, en.num with
      | [a], [nm] =>
        (match k with
        | .sealed | .raw => a.S.isEmpty && !all.grow
        | _ => a.S.all has) &&
        (k != .bare || rs.all (·.bare)) &&
        (k != .params || nm.ord || (!all.own && all.used.all fun p => nm.G.contains p))
      | _, _ => false)

/-- An action at the end of a production. -/
def lastS (k : SK) (o : ValOut) (act : Act) (st : SS) : Bool :=
  let st := (extra act.line).writes.foldl writeS st
  match opsSc st act.ops with
  | none => false
  | some en =>
    let ev := if (extra act.line).opsLast then st else en
    match outScan ev o with
    | some rs => finishS k ev en (extra act.line).opsLast rs
    | none => false

/-- A right-hand side. -/
def walkS (k : SK) (block : Bool) (o : ValOut) : List Item → SS → Bool
  | [.a act], st => act.fails || lastS k o act st
  | .a act :: is, st => act.fails ||
    (match opsSc ((extra act.line).writes.foldl writeS st) act.ops with
    | some st => walkS k block o is { st with K := st.K ++ [{ ak := [], ctx := Lv.none }] }
    | none => false)
  | .t _ :: is, st => walkS k block o is { st with K := st.K ++ [{ ak := [.tok], ctx := Lv.none }] }
  | .n x :: is, st =>
    let n := st.K.length + 1
    match st.env, st.num, sig x with
    | cur :: r, nm :: m, some ak =>
      let ps := partsOf (sk x) n ak
      let ctx := cur.add ps
      let fits := x == NT.method_call || (block && n == 1)
      let K := st.K ++ [{ raw := sk x == .raw, bare := sk x == .bare, fits, pair := x == NT.opt_ensure, ak, ctx }]
      match sk x with
      | .sealed | .raw => walkS k block o is { st with K }
      | .head => walkS k block o is { env := Lv.none :: ctx :: r, num := ⟨false, []⟩ :: nm :: m, K }
      | .params => walkS k block o is { env := ctx :: r, num := { nm with G := ps ++ nm.G } :: m, K }
      | _ => walkS k block o is { st with env := ctx :: r, K }
    | _, _, none => true
    | _, _, _ => false
  | .err :: _, _ => true
  | [], _ => false

/-- The start of a production. -/
def startS : SS := ⟨[⟨true, []⟩], [⟨false, []⟩], []⟩
/-- A production. -/
def checkScope (ρ : Rule) (o : ValOut) : Bool := walkS (sk ρ.lhs) ρ.doBlockCall o ρ.rhs startS

end Verif.Grammar
