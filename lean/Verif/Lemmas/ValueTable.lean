import Verif.Lemmas.ValueSound
import Verif.Spec.Placed
/-!
The types of the values of all nonterminals, the check that every production respects them and uses its symbols from left to right,
and what follows for the values of a derivation tree.
-/
namespace Verif.Grammar
open Builder

/-- The types of the components of the value of each nonterminal. -/
def ntSig : List (List Ty) := [
  [.onode], -- program
  [.onode], -- top_compstmt
  [.nodes], -- top_stmts
  [.node], -- top_stmt
  [.tok 0, .onode, .tok 0], -- begin_block
  [.onode], -- bodystmt
  [.onode], -- compstmt
  [.nodes], -- stmts
  [.node], -- stmt_or_begin
  [.node], -- stmt
  [.node], -- command_asgn
  [.node], -- command_rhs
  [.node], -- expr
  [.tok 0], -- def_name
  [.tok 0, .tok 0], -- defn_head
  [.tok 0, .node, .tok 0, .tok 0], -- defs_head
  [.node], -- expr_value
  [.node, .tok 0], -- expr_value_do
  [.node], -- command_call
  [.node], -- block_command
  [.tok 0, .args, .onode, .tok 0], -- cmd_brace_block
  [.tok 0], -- fcall
  [.node], -- command
  [.node], -- mlhs
  [.node], -- mlhs_inner
  [.nodes], -- mlhs_basic
  [.node], -- mlhs_item
  [.nodes], -- mlhs_head
  [.nodes], -- mlhs_post
  [.node], -- mlhs_node
  [.node], -- lhs
  [.tok 0], -- cname
  [.node], -- cpath
  [.tok 0], -- fname
  [.node], -- fitem
  [.nodes], -- undef_list
  [.tok 0], -- op
  [.tok 0], -- reswords
  [.node], -- arg
  [.tok 0], -- relop
  [.node], -- rel_expr
  [.node], -- arg_value
  [.nodes], -- aref_args
  [.node], -- arg_rhs
  [.tok 0, .nodes, .tok 0], -- paren_args
  [.parens], -- opt_paren_args
  [.nodes], -- opt_call_args
  [.nodes], -- call_args
  [.nodes], -- command_args
  [.node], -- block_arg
  [.nodes], -- opt_block_arg
  [.nodes], -- args
  [.node], -- mrhs_arg
  [.nodes], -- mrhs
  [.node], -- primary
  [.node], -- primary_value
  [.tok 0], -- k_begin
  [.tok 0], -- k_if
  [.tok 0], -- k_unless
  [.tok 0], -- k_while
  [.tok 0], -- k_until
  [.tok 0], -- k_case
  [.tok 0], -- k_for
  [.tok 0], -- k_class
  [.tok 0], -- k_module
  [.tok 0], -- k_def
  [.tok 0], -- k_do
  [.tok 0], -- k_do_block
  [.tok 0], -- k_rescue
  [.tok 0], -- k_ensure
  [.tok 0], -- k_when
  [.tok 0], -- k_else
  [.tok 0], -- k_elsif
  [.tok 0], -- k_end
  [.tok 0], -- k_return
  [.tok 0], -- then
  [.tok 0], -- do
  [.tail], -- if_tail
  [.otok, .onode], -- opt_else
  [.node], -- for_var
  [.node], -- f_marg
  [.nodes], -- f_marg_list
  [.nodes], -- f_margs
  [.node], -- f_rest_marg
  [.nodes], -- f_any_kwrest
  [.tok 0], -- f_eq
  [.nodes], -- block_args_tail
  [.nodes], -- opt_block_args_tail
  [.tok 0], -- excessed_comma
  [.nodes], -- block_param
  [.onode], -- opt_block_param
  [.onode], -- block_param_def
  [.nodes], -- opt_bv_decl
  [.nodes], -- bv_decls
  [.node], -- bvar
  [.node], -- lambda
  [.onode], -- f_larglist
  [.tok 0, .onode, .tok 0], -- lambda_body
  [.tok 0, .args, .onode, .tok 0], -- do_block
  [.node], -- block_call
  [.node], -- method_call
  [.tok 0, .args, .onode, .tok 0], -- brace_block
  [.args, .onode], -- brace_body
  [.args, .onode], -- do_body
  [.nodes], -- case_args
  [.nodes, .otok, .onode], -- case_body
  [.nodes, .otok, .onode], -- cases
  [.nodes, .otok, .onode], -- p_case_body
  [.nodes, .otok, .onode], -- p_cases
  [.node, .onode], -- p_top_expr
  [.node], -- p_top_expr_body
  [.node], -- p_expr
  [.node], -- p_as
  [.node], -- p_alt
  [.tok 0], -- p_lparen
  [.tok 0], -- p_lbracket
  [.node], -- p_expr_basic
  [.nodes, .otok], -- p_args
  [.nodes, .otok], -- p_args_head
  [.nodes], -- p_args_tail
  [.nodes], -- p_find
  [.node], -- p_rest
  [.nodes], -- p_args_post
  [.node], -- p_arg
  [.nodes], -- p_kwargs
  [.nodes], -- p_kwarg
  [.node], -- p_kw
  [.label], -- p_kw_label
  [.nodes], -- p_kwrest
  [.tok 0, .tok 0], -- p_kwnorest
  [.nodes], -- p_any_kwrest
  [.node], -- p_value
  [.node], -- p_primitive
  [.node], -- p_variable
  [.node], -- p_var_ref
  [.node], -- p_expr_ref
  [.node], -- p_const
  [.nodes], -- opt_rescue
  [.nodes], -- exc_list
  [.exc], -- exc_var
  [.otok, .onode], -- opt_ensure
  [.node], -- literal
  [.node], -- strings
  [.nodes], -- string
  [.node], -- string1
  [.node], -- xstring
  [.node], -- regexp
  [.node], -- words
  [.nodes], -- word_list
  [.nodes], -- word
  [.node], -- symbols
  [.nodes], -- symbol_list
  [.node], -- qwords
  [.node], -- qsymbols
  [.nodes], -- qword_list
  [.nodes], -- qsym_list
  [.nodes], -- string_contents
  [.nodes], -- xstring_contents
  [.nodes], -- regexp_contents
  [.node], -- string_content
  [.node], -- string_dvar
  [.node], -- symbol
  [.node], -- ssym
  [.tok 0], -- sym
  [.node], -- dsym
  [.node], -- numeric
  [.node], -- simple_numeric
  [.node], -- nonlocal_var
  [.node], -- user_variable
  [.node], -- keyword_variable
  [.node], -- var_ref
  [.node], -- var_lhs
  [.node], -- backref
  [.otok, .onode], -- superclass
  [.onode], -- f_opt_paren_args
  [.onode], -- f_paren_args
  [.onode], -- f_arglist
  [.nodes], -- args_tail
  [.nodes], -- opt_args_tail
  [.nodes], -- f_args
  [.tok 0], -- args_forward
  [.never], -- f_bad_arg
  [.tok 0], -- f_norm_arg
  [.tok 0], -- f_arg_asgn
  [.node], -- f_arg_item
  [.nodes], -- f_arg
  [.tok 1], -- f_label
  [.node], -- f_kw
  [.node], -- f_block_kw
  [.nodes], -- f_block_kwarg
  [.nodes], -- f_kwarg
  [.tok 0], -- kwrest_mark
  [.nodes], -- f_no_kwarg
  [.nodes], -- f_kwrest
  [.node], -- f_opt
  [.node], -- f_block_opt
  [.nodes], -- f_block_optarg
  [.nodes], -- f_optarg
  [.tok 0], -- restarg_mark
  [.nodes], -- f_rest_arg
  [.tok 0], -- blkarg_mark
  [.node], -- f_block_arg
  [.nodes], -- opt_f_block_arg
  [.node], -- singleton
  [.nodes], -- assoc_list
  [.nodes], -- assocs
  [.node], -- assoc
  [.tok 0], -- operation
  [.tok 0], -- operation2
  [.tok 0], -- operation3
  [.tok 0], -- dot_or_colon
  [.tok 0], -- call_op
  [.tok 0], -- call_op2
  [], -- opt_terms
  [], -- opt_nl
  [.tok 0], -- rparen
  [.tok 0], -- rbracket
  [.tok 0], -- rbrace
  [], -- trailer
  [.tok 0], -- term
  [], -- terms
  []] -- none

/-- The types of the components of the values `$1, $2, …` of a right-hand side. -/
def slotTys : List Item → List (List Ty)
  | [] => []
  | .a _ :: is => [] :: slotTys is
  | .t tok :: is => [.tok (minSize tok)] :: slotTys is
  | .n x :: is => (ntSig[x]?).getD [.never] :: slotTys is
  | .err :: is => [.never] :: slotTys is

/-- A component of type `s` can be used as one of type `t`. -/
def Ty.sub : Ty → Ty → Bool
  | .tok k, .tok j => j ≤ k
  | s, t => s == t

/-- The same for lists of types. -/
def subL : List Ty → List Ty → Bool
  | [], [] => true
  | s :: ss, t :: ts => s.sub t && subL ss ts
  | _, _ => false

mutual
/-- Checks an expression against a type. Components of the symbols are numbered from left to right and may be used from number `cur`
on; the result is the number after the last one used. -/
def chkEx (tss : List (List Ty)) (t : Ty) (cur : Nat) : Ex → Option Nat
  | .fld n i =>
    match (tss[n - 1]?).bind (·[i]?) with
    | none => none
    | some s =>
      let k := (tss.take (n - 1)).flatten.length + i
      if cur ≤ k && s.sub t then some (k + 1) else none
  | .call f es => if f.sig.2.sub t then chkExs tss f.sig.1 cur es else none
/-- The same for a list. -/
def chkExs (tss : List (List Ty)) (ts : List Ty) (cur : Nat) : List Ex → Option Nat
  | [] => if ts.isEmpty then some cur else none
  | e :: es =>
    match ts with
    | [] => none
    | t :: ts =>
      match chkEx tss t cur e with
      | none => none
      | some cur => chkExs tss ts cur es
end

/-- Checks what a production gives to `$$`. -/
def chkOut (tss : List (List Ty)) (ts : List Ty) : ValOut → Bool
  | .copy n => match tss[n - 1]? with
    | none => false
    | some ss => subL ss ts
  | .mk es => (chkExs tss ts 0 es).isSome

/-- Checks a production. -/
def chkRule (ρ : Rule) (o : Nat × ValOut) : Bool :=
  ρ.rhs.any Item.refuses || (slotTys ρ.rhs).any (·.contains .never) ||
    (match ntSig[ρ.lhs]? with
     | none => false
     | some ts => chkOut (slotTys ρ.rhs) ts o.2)

/-- The line of the last action. -/
def lastLine : List Item → Nat
  | [] => 0
  | [.a act] => act.line
  | _ :: is => lastLine is

theorem rules_chk : (rules.zip outs).all (fun p => chkRule p.1 p.2) = true := by decide +kernel
theorem rules_line : (rules.map fun ρ => lastLine ρ.rhs) = outs.map (·.1) := by decide +kernel
theorem rules_len : outs.length = rules.length := by decide +kernel

theorem rule_chk {r : Nat} {ρ : Rule} {o : Nat × ValOut} (h1 : rules[r]? = some ρ) (h2 : outs[r]? = some o) : chkRule ρ o = true := by
  refine List.all_eq_true.1 rules_chk (ρ, o) ?_
  rw [List.mem_iff_getElem?]
  exact ⟨r, by rw [List.getElem?_zip_eq_some]; exact ⟨h1, h2⟩⟩

theorem Ty.At.sub {s t : Ty} {x : Atom} (h : s.At x a b) (hs : s.sub t = true) : t.At x a b := by
  unfold Ty.sub at hs
  split at hs
  · rename_i k j
    have hjk : j ≤ k := by simpa using hs
    cases x with
    | tok u =>
      cases k with
      | zero =>
        cases j with
        | zero => exact h
        | succ j => omega
      | succ k =>
        have h : u.At a b ∧ u.loc.begin + (k + 1) ≤ u.loc.stop := h
        cases j with
        | zero => exact h.1
        | succ j => exact ⟨h.1, by omega⟩
    | _ => cases k <;> exact absurd h id
  · have : s = t := by simpa using hs
    exact this ▸ h

theorem Chain.sub {ss ts : List Ty} {xs : List Atom} (h : Chain ss xs a b) (hs : subL ss ts = true) : Chain ts xs a b := by
  induction ss generalizing ts xs a with
  | nil => cases ts with
    | nil => exact h
    | cons t ts => cases hs
  | cons s ss ih => cases ts with
    | nil => cases hs
    | cons t ts =>
      obtain ⟨y, ys, m, rfl, h1, h2⟩ := chain_cons h
      rw [subL, Bool.and_eq_true] at hs
      exact ⟨m, h1.sub hs.1, ih h2 hs.2⟩

theorem Chain.drop {ts : List Ty} {xs : List Atom} (h : Chain ts xs a b) (k : Nat) : ∃ c, a ≤ c ∧ Chain (ts.drop k) (xs.drop k) c b := by
  induction k generalizing ts xs a with
  | zero => exact ⟨a, Nat.le_refl _, h⟩
  | succ k ih =>
    cases ts with
    | nil =>
      obtain ⟨rfl, h⟩ := chain_nil h
      exact ⟨a, Nat.le_refl _, h⟩
    | cons t ts =>
      obtain ⟨y, ys, m, rfl, h1, h2⟩ := chain_cons h
      obtain ⟨c, h3, h4⟩ := ih h2
      have := h1.le
      exact ⟨c, by omega, h4⟩

theorem Chain.append {ts us : List Ty} {xs ys : List Atom} (h : Chain ts xs a m) (h' : Chain us ys m b) :
    Chain (ts ++ us) (xs ++ ys) a b := by
  induction ts generalizing xs a with
  | nil =>
    obtain ⟨rfl, h⟩ := chain_nil h
    exact h'.mono h (Nat.le_refl _)
  | cons t ts ih =>
    obtain ⟨y, ys, m, rfl, h1, h2⟩ := chain_cons h
    exact ⟨m, h1, ih h2⟩

theorem Chain.never {ts : List Ty} {xs : List Atom} (h : Chain ts xs a b) : Ty.never ∉ ts := by
  induction ts generalizing xs a with
  | nil => exact nofun
  | cons t ts ih =>
    obtain ⟨y, ys, m, rfl, h1, h2⟩ := chain_cons h
    intro hm
    rcases List.mem_cons.1 hm with rfl | hm
    · cases y <;> exact h1
    · exact ih h2 hm

/-- Values one after the other. -/
def Chains : List (List Ty) → List (List Atom) → Nat → Nat → Prop
  | [], [], a, b => a ≤ b
  | t :: ts, x :: xs, a, b => ∃ m, Chain t x a m ∧ Chains ts xs m b
  | _, _, _, _ => False

theorem chains_cons {t : List Ty} {ts : List (List Ty)} {xs : List (List Atom)} (h : Chains (t :: ts) xs a b) :
    ∃ y ys m, xs = y :: ys ∧ Chain t y a m ∧ Chains ts ys m b := by
  cases xs with
  | nil => exact absurd h id
  | cons y ys => obtain ⟨m, h1, h2⟩ := h; exact ⟨y, ys, m, rfl, h1, h2⟩
theorem chains_nil {xs : List (List Atom)} (h : Chains [] xs a b) : xs = [] ∧ a ≤ b := by
  cases xs with
  | nil => exact ⟨rfl, h⟩
  | cons z zs => exact absurd h id
theorem Chain.length {ts : List Ty} {xs : List Atom} (h : Chain ts xs a b) : ts.length = xs.length := by
  induction ts generalizing xs a with
  | nil => obtain ⟨rfl, h⟩ := chain_nil h; rfl
  | cons t ts ih =>
    obtain ⟨y, ys, m, rfl, h1, h2⟩ := chain_cons h
    simp [ih h2]
theorem Chains.flat {tss : List (List Ty)} {xss : List (List Atom)} (h : Chains tss xss a b) : Chain tss.flatten xss.flatten a b := by
  induction tss generalizing xss a with
  | nil =>
    obtain ⟨rfl, h⟩ := chains_nil h
    exact h
  | cons t ts ih =>
    obtain ⟨y, ys, m, rfl, h1, h2⟩ := chains_cons h
    exact h1.append (ih h2)
theorem Chains.le {tss : List (List Ty)} {xss : List (List Atom)} (h : Chains tss xss a b) : a ≤ b := h.flat.le

theorem Chains.get {tss : List (List Ty)} {xss : List (List Atom)} (h : Chains tss xss a b) {n : Nat} {ss : List Ty} {v : List Atom}
    (h1 : tss[n]? = some ss) (h2 : xss[n]? = some v) : Chain ss v a b := by
  induction tss generalizing xss a n with
  | nil => cases h1
  | cons t ts ih =>
    obtain ⟨y, ys, m, rfl, h3, h4⟩ := chains_cons h
    cases n with
    | zero =>
      cases h1; cases h2
      exact h3.mono (Nat.le_refl _) h4.le
    | succ n => exact (ih h4 h1 h2).mono h3.le (Nat.le_refl _)

/-- A component of a symbol among all of them. -/
theorem Chains.fld {tss : List (List Ty)} {xss : List (List Atom)} (h : Chains tss xss a b) {n i : Nat} {s : Ty} {x : Atom}
    (h1 : (tss[n]?).bind (·[i]?) = some s) (h2 : (xss[n]?).bind (·[i]?) = some x) :
    tss.flatten[(tss.take n).flatten.length + i]? = some s ∧ xss.flatten[(tss.take n).flatten.length + i]? = some x := by
  induction tss generalizing xss a n with
  | nil => cases h1
  | cons t ts ih =>
    obtain ⟨y, ys, m, rfl, h3, h4⟩ := chains_cons h
    have hl := h3.length
    cases n with
    | zero =>
      have h1 : t[i]? = some s := h1
      have h2 : y[i]? = some x := h2
      have l1 := (List.getElem?_eq_some_iff.1 h1).1
      have l2 := (List.getElem?_eq_some_iff.1 h2).1
      simp only [List.take_zero, List.flatten_nil, List.length_nil, Nat.zero_add, List.flatten_cons]
      rw [List.getElem?_append_left l1, List.getElem?_append_left l2]
      exact ⟨h1, h2⟩
    | succ n =>
      obtain ⟨h5, h6⟩ := ih h4 (n := n) h1 h2
      simp only [List.take_succ_cons, List.flatten_cons, List.length_append]
      rw [List.getElem?_append_right (by omega), List.getElem?_append_right (by omega)]
      rw [show t.length + (ts.take n).flatten.length + i - t.length = (ts.take n).flatten.length + i by omega,
        show t.length + (ts.take n).flatten.length + i - y.length = (ts.take n).flatten.length + i by omega]
      exact ⟨h5, h6⟩

mutual
theorem chkEx_sound {ext : BldExt} {tss : List (List Ty)} {vals : List (List Atom)} (hv : Chains tss vals a₀ b₀) :
    ∀ (e : Ex) {t : Ty} {cur cur' : Nat} {c b : Nat} {x : Atom}, chkEx tss t cur e = some cur' →
    Chain (tss.flatten.drop cur) (vals.flatten.drop cur) c b → e.Gives ext vals x →
    ∃ m, t.At x c m ∧ Chain (tss.flatten.drop cur') (vals.flatten.drop cur') m b
  | .fld n i, t, cur, cur', c, b, x, hc, h, hg => by
    rw [chkEx] at hc
    rw [Ex.Gives] at hg
    split at hc
    · cases hc
    · rename_i s hs
      obtain ⟨h1, h2⟩ := hv.fld hs hg
      dsimp only at hc
      split at hc
      · rename_i hk
        rw [Bool.and_eq_true, decide_eq_true_eq] at hk
        generalize (tss.take (n - 1)).flatten.length + i = k at *
        cases hc
        obtain ⟨c', hcc, h3⟩ := h.drop (k - cur)
        rw [List.drop_drop, List.drop_drop, show cur + (k - cur) = k by omega] at h3
        obtain ⟨l1, e1⟩ := List.getElem?_eq_some_iff.1 h1
        obtain ⟨l2, e2⟩ := List.getElem?_eq_some_iff.1 h2
        rw [List.drop_eq_getElem_cons l1, List.drop_eq_getElem_cons l2, e1, e2] at h3
        obtain ⟨m, h4, h5⟩ := h3
        exact ⟨m, (h4.sub hk.2).mono hcc (Nat.le_refl _), h5⟩
      · cases hc
  | .call f es, t, cur, cur', c, b, x, hc, h, hg => by
    rw [chkEx] at hc
    rw [Ex.Gives] at hg
    split at hc
    · rename_i hs
      obtain ⟨xs, hxs, indent, s, s', hr⟩ := hg
      obtain ⟨m, h1, h2⟩ := chkExs_sound hv es hc h hxs
      exact ⟨m, (sound_all f ext indent xs c m h1 s x s' hr).sub hs, h2⟩
    · cases hc
theorem chkExs_sound {ext : BldExt} {tss : List (List Ty)} {vals : List (List Atom)} (hv : Chains tss vals a₀ b₀) :
    ∀ (es : List Ex) {ts : List Ty} {cur cur' : Nat} {c b : Nat} {xs : List Atom}, chkExs tss ts cur es = some cur' →
    Chain (tss.flatten.drop cur) (vals.flatten.drop cur) c b → exGives ext vals es xs →
    ∃ m, Chain ts xs c m ∧ Chain (tss.flatten.drop cur') (vals.flatten.drop cur') m b
  | [], ts, cur, cur', c, b, xs, hc, h, hg => by
    rw [chkExs] at hc
    rw [exGives] at hg
    subst hg
    cases ts with
    | nil => cases hc; exact ⟨c, Nat.le_refl c, h⟩
    | cons t ts => cases hc
  | e :: es, ts, cur, cur', c, b, xs, hc, h, hg => by
    rw [chkExs.eq_def] at hc
    rw [exGives] at hg
    obtain ⟨y, ys, rfl, hy, hys⟩ := hg
    cases ts with
    | nil => cases hc
    | cons t ts =>
      dsimp only at hc
      split at hc
      · cases hc
      · rename_i cur'' he
        obtain ⟨m, h1, h2⟩ := chkEx_sound hv e he h hy
        obtain ⟨m', h3, h4⟩ := chkExs_sound hv es hc h2 hys
        exact ⟨m', ⟨m, h1, h3⟩, h4⟩
end

theorem chkOut_sound {ext : BldExt} {tss : List (List Ty)} {ts : List Ty} {vals : List (List Atom)} {o : ValOut} {vs : List Atom}
    (hv : Chains tss vals a b) (hc : chkOut tss ts o = true) (hg : o.Gives ext vals vs) : Chain ts vs a b := by
  cases o with
  | copy n =>
    have hg : vals[n - 1]? = some vs := hg
    rw [chkOut] at hc
    split at hc
    · cases hc
    · rename_i ss hs
      exact (hv.get hs hg).sub hc
  | mk es =>
    obtain ⟨cur', hc⟩ := Option.isSome_iff_exists.1 hc
    obtain ⟨m, h1, h2⟩ := chkExs_sound hv es hc hv.flat hg
    exact h1.mono (Nat.le_refl _) h2.le

/-- The types of the components of the value of a tree. -/
def symTys : Option Sym → List Ty
  | some (.t tok) => [.tok (minSize tok)]
  | some (.n x) => (ntSig[x]?).getD [.never]
  | none => []

/-- The values of the symbols, together with those of the actions between them. -/
theorem chains_slots {rhs : List Item} {ss : List Sym} {vss : List (List Atom)} (hs : syms rhs = some ss)
    (h : Chains (ss.map fun s => symTys (some s)) vss a b) : Chains (slotTys rhs) (slots rhs vss) a b := by
  induction rhs generalizing ss vss a with
  | nil =>
    cases hs
    obtain ⟨rfl, h⟩ := chains_nil h
    exact h
  | cons i is ih =>
    cases i with
    | a act => exact ⟨a, Nat.le_refl a, ih hs h⟩
    | err => cases hs
    | t tok =>
      rw [syms, Option.map_eq_some_iff] at hs
      obtain ⟨ss', h1, rfl⟩ := hs
      obtain ⟨y, ys, m, rfl, h2, h3⟩ := chains_cons h
      exact ⟨m, h2, ih h1 h3⟩
    | n x =>
      rw [syms, Option.map_eq_some_iff] at hs
      obtain ⟨ss', h1, rfl⟩ := hs
      obtain ⟨y, ys, m, rfl, h2, h3⟩ := chains_cons h
      exact ⟨m, h2, ih h1 h3⟩

theorem chains_never {tss : List (List Ty)} {vss : List (List Atom)} (h : Chains tss vss a b) : tss.any (·.contains .never) = false := by
  rw [List.any_eq_false]
  intro ts hts hc
  have := h.flat.never
  simp only [List.mem_flatten, not_exists, not_and] at this
  exact this ts hts (by simpa using hc)

theorem rule_sound {ext : BldExt} {r : Nat} {ρ : Rule} {o : Nat × ValOut} {ss : List Sym} {vss : List (List Atom)} {vs : List Atom}
    (h1 : rules[r]? = some ρ) (h2 : outs[r]? = some o) (h3 : ρ.rhs.all (fun i => !i.refuses) = true) (hs : syms ρ.rhs = some ss)
    (h : Chains (ss.map fun s => symTys (some s)) vss a b) (hg : o.2.Gives ext (slots ρ.rhs vss) vs) :
    Chain (symTys (some (.n ρ.lhs))) vs a b := by
  have hc := rule_chk h1 h2
  have hv := chains_slots hs h
  unfold chkRule at hc
  rw [chains_never hv, show ρ.rhs.any Item.refuses = false by
    rw [List.any_eq_false]; intro i hi; have := List.all_eq_true.1 h3 i hi; simpa using this] at hc
  simp only [Bool.false_or] at hc
  split at hc
  · cases hc
  · rename_i ts hts
    rw [symTys, hts]
    exact chkOut_sound hv hc hg

/-- The productions of strings that may be here documents. -/
theorem heredoc_rules : (rules.zip outs).all (fun p => match p with
    | (ρ, o) => !(ρ.lhs == NT.string1 || ρ.lhs == NT.xstring) ||
      ((syms ρ.rhs == some [.t .tSTRING_BEG, .n NT.string_contents, .t .tSTRING_END] && ρ.lhs == NT.string1 &&
          (match o.2 with | .mk [.call .string1 [.fld 1 0, .fld 2 0, .fld 3 0]] => true | _ => false)) ||
        (syms ρ.rhs == some [.t .tXSTRING_BEG, .n NT.xstring_contents, .t .tSTRING_END] && ρ.lhs == NT.xstring &&
          (match o.2 with | .mk [.call .xstring [.fld 1 0, .fld 2 0, .fld 3 0]] => true | _ => false))) &&
      (match ρ.rhs with | [.t _, .n _, .t _, .a _] => true | _ => false)) = true := by decide +kernel

theorem heredoc_rule {r : Nat} {ρ : Rule} {o : Nat × ValOut} (h1 : rules[r]? = some ρ) (h2 : outs[r]? = some o)
    (hl : (ρ.lhs == NT.string1 || ρ.lhs == NT.xstring) = true) :
    ∃ t c, syms ρ.rhs = some [.t t, .n c, .t .tSTRING_END] ∧ minSize t = 0 ∧ (∃ x y z w, ρ.rhs = [.t x, .n y, .t z, .a w]) ∧
      ntSig[c]? = some [.nodes] ∧ ntSig[ρ.lhs]? = some [.node] ∧
      (o.2 = .mk [.call .string1 [.fld 1 0, .fld 2 0, .fld 3 0]] ∨ o.2 = .mk [.call .xstring [.fld 1 0, .fld 2 0, .fld 3 0]]) := by
  have h := List.all_eq_true.1 heredoc_rules (ρ, o) (by
    rw [List.mem_iff_getElem?]
    exact ⟨r, by rw [List.getElem?_zip_eq_some]; exact ⟨h1, h2⟩⟩)
  dsimp only at h
  rw [hl, Bool.not_true, Bool.false_or, Bool.and_eq_true, Bool.or_eq_true, Bool.and_eq_true, Bool.and_eq_true, Bool.and_eq_true,
    Bool.and_eq_true] at h
  obtain ⟨h, h'⟩ := h
  have h' : ∃ x y z w, ρ.rhs = [.t x, .n y, .t z, .a w] := by
    split at h'
    · exact ⟨_, _, _, _, by assumption⟩
    · cases h'
  rcases h with ⟨⟨h3, h4⟩, h5⟩ | ⟨⟨h3, h4⟩, h5⟩
  · refine ⟨_, _, by simpa using h3, rfl, h', rfl, ?_, .inl ?_⟩
    · rw [show ρ.lhs = NT.string1 by simpa using h4]; rfl
    · split at h5
      · assumption
      · cases h5
  · refine ⟨_, _, by simpa using h3, rfl, h', rfl, ?_, .inr ?_⟩
    · rw [show ρ.lhs = NT.xstring by simpa using h4]; rfl
    · split at h5
      · assumption
      · cases h5

theorem startsHeredoc_iff {v : Bytes} (h : (v.take 2 == [60, 60]) = true) : startsHeredoc v = true := by
  match v, h with
  | [], h => cases h
  | [_], h => simp at h
  | x :: y :: _, h =>
    simp only [List.take_succ_cons, List.take_zero, beq_iff_eq, List.cons.injEq, and_true] at h
    rw [h.1, h.2]
    rfl

theorem heredoc_at {ext : BldExt} {r : Nat} {ρ : Rule} {o : Nat × ValOut} {t : Token} {vs : List Atom}
    (h1 : rules[r]? = some ρ) (h2 : outs[r]? = some o) (hl : (ρ.lhs == NT.string1 || ρ.lhs == NT.xstring) = true)
    (hh : (t.tokenValue.take 2 == [60, 60]) = true) (ht : t.At a b) {ns : List Node} {u : Token}
    (hns : ∀ n ∈ ns, Nested n)
    (hg : o.2.Gives ext (slots ρ.rhs [[.tok t], [.nodes ns], [.tok u]]) vs) : Chain (symTys (some (.n ρ.lhs))) vs a b := by
  obtain ⟨tt, cc, h3, -, ⟨x, y, z, w, h4⟩, -, h5, h6⟩ := heredoc_rule h1 h2 hl
  rw [symTys, h5, Option.getD_some]
  rw [h4] at hg
  have hsl : slots [.t x, .n y, .t z, .a w] [[Atom.tok t], [.nodes ns], [.tok u]] = [[.tok t], [.nodes ns], [.tok u], []] := rfl
  rw [hsl] at hg
  have hh := startsHeredoc_iff hh
  rcases h6 with h6 | h6
  · rw [h6] at hg
    obtain ⟨x, ys, rfl, hx, rfl⟩ := hg
    rw [Ex.Gives] at hx
    obtain ⟨xs, hxs, indent, s, s', hr⟩ := hx
    obtain ⟨x1, ys, rfl, hx1, x2, ys, rfl, hx2, x3, ys, rfl, hx3, rfl⟩ := hxs
    rw [Ex.Gives] at hx1 hx2 hx3
    cases hx1; cases hx2; cases hx3
    have : BldR.Gives (applyFn ext indent .string1 [.tok t, .nodes ns, .tok u]) (fun r => Ty.node.At r a b) :=
      outR_gives (Res.gives_bind (stringCompose_heredoc_at ht hns hh) fun r hr => heredocDedent_at hr) fun _ h => h
    exact ⟨b, this _ _ _ hr, Nat.le_refl _⟩
  · rw [h6] at hg
    obtain ⟨x, ys, rfl, hx, rfl⟩ := hg
    rw [Ex.Gives] at hx
    obtain ⟨xs, hxs, indent, s, s', hr⟩ := hx
    obtain ⟨x1, ys, rfl, hx1, x2, ys, rfl, hx2, x3, ys, rfl, hx3, rfl⟩ := hxs
    rw [Ex.Gives] at hx1 hx2 hx3
    cases hx1; cases hx2; cases hx3
    have : BldR.Gives (applyFn ext indent .xstring [.tok t, .nodes ns, .tok u]) (fun r => Ty.node.At r a b) :=
      outR_gives (heredocDedent_at (xstringCompose_heredoc_at ht hns hh)) fun _ h => h
    exact ⟨b, this _ _ _ hr, Nat.le_refl _⟩

/-- The productions of the pieces of strings. -/
theorem contents_rules : (rules.zip outs).all (fun p => match p with
    | (ρ, o) => !(ρ.lhs == NT.string_contents || ρ.lhs == NT.xstring_contents) ||
      ((match ρ.rhs with | [.a _] => true | _ => false) &&
          (match o.2 with | .mk [.call .nilL []] => true | _ => false)) ||
        ((match ρ.rhs with | [.n x, .n y, .a _] => x == ρ.lhs && y == NT.string_content | _ => false) &&
          (match o.2 with | .mk [.call .append [.fld 1 0, .call .single [.fld 2 0]]] => true | _ => false))) = true := by
  decide +kernel

theorem contents_rule {r : Nat} {ρ : Rule} {o : Nat × ValOut} (h1 : rules[r]? = some ρ) (h2 : outs[r]? = some o)
    (hl : (ρ.lhs == NT.string_contents || ρ.lhs == NT.xstring_contents) = true) :
    ntSig[ρ.lhs]? = some [.nodes] ∧ (((∃ w, ρ.rhs = [.a w]) ∧ o.2 = .mk [.call .nilL []]) ∨
      ((∃ w, ρ.rhs = [.n ρ.lhs, .n NT.string_content, .a w]) ∧ o.2 = .mk [.call .append [.fld 1 0, .call .single [.fld 2 0]]])) := by
  have h := List.all_eq_true.1 contents_rules (ρ, o) (by
    rw [List.mem_iff_getElem?]
    exact ⟨r, by rw [List.getElem?_zip_eq_some]; exact ⟨h1, h2⟩⟩)
  dsimp only at h
  rw [hl, Bool.not_true, Bool.false_or, Bool.or_eq_true, Bool.and_eq_true, Bool.and_eq_true] at h
  refine ⟨?_, ?_⟩
  · rw [Bool.or_eq_true] at hl
    rcases hl with hl | hl <;> rw [beq_iff_eq.1 hl] <;> rfl
  · rcases h with ⟨h3, h4⟩ | ⟨h3, h4⟩
    · refine .inl ⟨?_, ?_⟩
      · split at h3
        · exact ⟨_, by assumption⟩
        · cases h3
      · split at h4
        · assumption
        · cases h4
    · refine .inr ⟨?_, ?_⟩
      · split at h3
        · rename_i x y w he
          rw [Bool.and_eq_true, beq_iff_eq, beq_iff_eq] at h3
          exact ⟨w, by rw [he, h3.1, h3.2]⟩
        · cases h3
      · split at h4
        · assumption
        · cases h4

/-- Components of the types, somewhere; of a list of nodes each one somewhere. -/
def Loose (ts : List Ty) (vs : List Atom) : Prop :=
  (∃ a b, Chain ts vs a b) ∨ (ts = [.nodes] ∧ ∃ ns, vs = [.nodes ns] ∧ ∀ n ∈ ns, Nested n)

/-- The same for values side by side. -/
def LooseL : List (List Ty) → List (List Atom) → Prop
  | [], [] => True
  | t :: ts, x :: xs => Loose t x ∧ LooseL ts xs
  | _, _ => False

theorem Loose.nodes {vs : List Atom} (h : Loose [.nodes] vs) : ∃ ns, vs = [.nodes ns] ∧ ∀ n ∈ ns, Nested n := by
  rcases h with ⟨a, b, h⟩ | ⟨-, h⟩
  · obtain ⟨y, m, rfl, g, -⟩ := chain_one h
    obtain ⟨ns, rfl, g⟩ := at_nodes g
    exact ⟨ns, rfl, fun n hn => (g.mem hn).1⟩
  · exact h
theorem Loose.tok {vs : List Atom} (h : Loose [.tok 0] vs) : ∃ u, vs = [.tok u] := by
  rcases h with ⟨a, b, h⟩ | ⟨h, -⟩
  · obtain ⟨y, m, rfl, g, -⟩ := chain_one h
    obtain ⟨u, rfl, g⟩ := at_tok0 g
    exact ⟨u, rfl⟩
  · cases h
theorem Loose.node {vs : List Atom} (h : Loose [.node] vs) : ∃ n, vs = [.node n] ∧ Nested n := by
  rcases h with ⟨a, b, h⟩ | ⟨h, -⟩
  · obtain ⟨y, m, rfl, g, -⟩ := chain_one h
    obtain ⟨u, rfl, g⟩ := at_node g
    exact ⟨u, rfl, g.1⟩
  · cases h
theorem LooseL.two {t u : List Ty} {vss : List (List Atom)} (h : LooseL [t, u] vss) : ∃ v w, vss = [v, w] ∧ Loose t v ∧ Loose u w := by
  match vss, h with
  | [v, w], h => exact ⟨v, w, rfl, h.1, h.2.1⟩
  | v :: w :: z :: r, h => exact absurd h.2.2 id
  | [v], h => exact absurd h.2 id
  | [], h => exact absurd h id

theorem wf_node {r : Nat} {kids : List TTree} (h : (TTree.node r kids).shape.wf = true) {ρ : Rule} (h1 : rules[r]? = some ρ) :
    ∃ ss, syms ρ.rhs = some ss ∧ rootsL (shapeL kids) = ss.map some ∧ wfL (shapeL kids) = true := by
  rw [TTree.shape, Tree.wf, h1] at h
  dsimp only at h
  rw [Bool.and_eq_true, decide_eq_true_eq, Option.map_eq_some_iff] at h
  obtain ⟨⟨ss, h2, h3⟩, h4⟩ := h
  exact ⟨ss, h2, h3.symm, h4⟩

theorem contents_loose {ext : BldExt} {r : Nat} {ρ : Rule} {o : Nat × ValOut} {ss : List Sym} {vss : List (List Atom)} {vs : List Atom}
    (h1 : rules[r]? = some ρ) (h2 : outs[r]? = some o)
    (hl : (ρ.lhs == NT.string_contents || ρ.lhs == NT.xstring_contents) = true) (hs : syms ρ.rhs = some ss)
    (h : LooseL (ss.map fun s => symTys (some s)) vss) (hg : o.2.Gives ext (slots ρ.rhs vss) vs) :
    Loose (symTys (some (.n ρ.lhs))) vs := by
  obtain ⟨g1, ⟨⟨w, g2⟩, g3⟩ | ⟨⟨w, g2⟩, g3⟩⟩ := contents_rule h1 h2 hl
  · rw [symTys, g1, Option.getD_some]
    refine .inr ⟨rfl, [], ?_, nofun⟩
    rw [g3] at hg
    obtain ⟨x, ys, rfl, hx, rfl⟩ := hg
    rw [Ex.Gives] at hx
    obtain ⟨xs, hxs, indent, s, s', hr⟩ := hx
    rw [exGives] at hxs
    subst hxs
    cases hr
    rfl
  · rw [g2] at hs
    cases hs
    obtain ⟨v1, v2, rfl, k1, k2⟩ := h.two
    have k1 : Loose [.nodes] v1 := by
      have := k1
      simp only [symTys, g1, Option.getD_some] at this
      exact this
    rw [symTys, g1, Option.getD_some]
    obtain ⟨ns, rfl, hns⟩ := k1.nodes
    obtain ⟨n, rfl, hn⟩ := Loose.node k2
    refine .inr ⟨rfl, ns ++ [n], ?_, ?_⟩
    · rw [g2, g3] at hg
      have hsl : slots [.n ρ.lhs, .n NT.string_content, .a w] [[Atom.nodes ns], [.node n]] = [[.nodes ns], [.node n], []] := rfl
      rw [hsl] at hg
      obtain ⟨x, ys, rfl, hx, rfl⟩ := hg
      rw [Ex.Gives] at hx
      obtain ⟨xs, hxs, indent, s, s', hr⟩ := hx
      obtain ⟨x1, ys, rfl, hx1, x2, ys, rfl, hx2, rfl⟩ := hxs
      rw [Ex.Gives.eq_def] at hx1 hx2
      cases hx1
      obtain ⟨xs, hxs, _, _, _, hr2⟩ := hx2
      obtain ⟨x3, ys, rfl, hx3, rfl⟩ := hxs
      rw [Ex.Gives] at hx3
      cases hx3
      cases hr2
      cases hr
      rfl
    · intro m hm
      rcases List.mem_append.1 hm with hm | hm
      · exact hns m hm
      · rw [List.mem_singleton.1 hm]; exact hn

theorem leaf_at {ext : BldExt} {t : Token} {vs : List Atom} {a b : Nat} (hp : Placed (.leaf t) a b) (hv : Evals ext (.leaf t) vs) :
    Chain (symTys (some (.t t.tokenType))) vs a b := by
  rw [Evals] at hv
  rw [Placed] at hp
  subst hv
  obtain ⟨h1, h2, h3⟩ := hp
  refine ⟨b, ?_, Nat.le_refl b⟩
  have : t.At a b := ⟨h1, by omega, h3⟩
  revert h2
  show _ → Ty.At (.tok (minSize t.tokenType)) (.tok t) a b
  cases minSize t.tokenType with
  | zero => exact fun _ => this
  | succ k => exact fun h => ⟨this, h⟩

mutual
/-- The value of a placed tree is placed. -/
theorem evals_at {ext : BldExt} : ∀ (t : TTree) {vs : List Atom} {a b : Nat}, t.shape.wf = true → Placed t a b → Evals ext t vs →
    Chain (symTys t.shape.root) vs a b
  | .leaf t, vs, a, b, _, hp, hv => leaf_at hp hv
  | .node r kids, vs, a, b, hw, hp, hv => by
    rw [Placed] at hp
    exact evals_node r kids hw hp hv
termination_by t => (sizeOf t, 0)
theorem evals_node {ext : BldExt} (r : Nat) (kids : List TTree) {vs : List Atom} {a b : Nat} (hw : (TTree.node r kids).shape.wf = true)
    (hp : if opensHeredoc r kids then placedHeredoc kids a b else placedL kids a b) (hv : Evals ext (.node r kids) vs) :
    Chain (symTys (TTree.node r kids).shape.root) vs a b := by
    rw [Evals] at hv
    obtain ⟨ρ, o, h1, h2, h3, vss, h4, h5⟩ := hv
    obtain ⟨ss, hs, hr, hk⟩ := wf_node hw h1
    have hroot : (TTree.node r kids).shape.root = some (.n ρ.lhs) := by
      rw [TTree.shape, Tree.root, h1]; rfl
    rw [hroot]
    split at hp
    · rename_i ho
      obtain ⟨t, ts, hkk⟩ : ∃ t ts, kids = .leaf t :: ts := by
        match kids, ho with
        | .leaf t :: ts, _ => exact ⟨t, ts, rfl⟩
      have hsz : sizeOf ts < sizeOf kids := by rw [hkk, List.cons.sizeOf_spec]; omega
      rw [hkk] at ho hp h4 hr hk
      rw [opensHeredoc, Bool.and_eq_true, h1] at ho
      obtain ⟨hl, hh⟩ := ho
      have hl : (ρ.lhs == NT.string1 || ρ.lhs == NT.xstring) = true := hl
      rw [placedHeredoc] at hp
      obtain ⟨hp1, hp2⟩ := hp
      obtain ⟨tt, cc, g1, g2, g3, g4, g5, g6⟩ := heredoc_rule h1 h2 hl
      rw [hs] at g1
      cases g1
      rw [shapeL, rootsL] at hr
      rw [shapeL, wfL, Bool.and_eq_true] at hk
      obtain ⟨hr1, hr2⟩ := List.cons.inj hr
      rw [evalsL] at h4
      obtain ⟨v, vss, rfl, hv1, hv2⟩ := h4
      have ht := leaf_at hp1 hv1
      have hts := evalsL_loose ts hk.2 hp2 hv2
      rw [hr2] at hts
      rw [show some (Sym.t t.tokenType) = _ from hr1] at ht
      rw [Evals] at hv1
      subst hv1
      obtain ⟨v1, v2, rfl, k1, k3⟩ := LooseL.two hts
      rw [symTys, g4] at k1
      obtain ⟨ns, rfl, hns⟩ := Loose.nodes k1
      obtain ⟨u, rfl⟩ := Loose.tok k3
      rw [symTys, g2] at ht
      obtain ⟨y, m, e, ht, hm⟩ := chain_one ht
      cases e
      obtain ⟨t', e, ht⟩ := at_tok0 ht
      cases e
      exact heredoc_at h1 h2 hl hh (ht.mono (Nat.le_refl _) hm) hns h5
    · have hc := evalsL_at kids hk hp h4
      rw [hr] at hc
      rw [List.map_map] at hc
      exact rule_sound h1 h2 h3 hs hc h5
termination_by (sizeOf kids, 1)
/-- The same for a list. -/
theorem evalsL_at {ext : BldExt} : ∀ (ts : List TTree) {vss : List (List Atom)} {a b : Nat}, wfL (shapeL ts) = true → placedL ts a b →
    evalsL ext ts vss → Chains ((rootsL (shapeL ts)).map symTys) vss a b
  | [], vss, a, b, _, hp, hv => by
    rw [evalsL] at hv
    rw [placedL] at hp
    subst hv
    exact hp
  | t :: ts, vss, a, b, hw, hp, hv => by
    rw [evalsL] at hv
    rw [placedL] at hp
    rw [shapeL, wfL, Bool.and_eq_true] at hw
    obtain ⟨v, vs, rfl, h1, h2⟩ := hv
    obtain ⟨m, h3, h4⟩ := hp
    exact ⟨m, evals_at t hw.1 h3 h1, evalsL_at ts hw.2 h4 h2⟩
termination_by ts => (sizeOf ts, 0)
/-- A tree somewhere. -/
theorem evals_loose {ext : BldExt} : ∀ (t : TTree) {vs : List Atom}, t.shape.wf = true → Anywhere t → Evals ext t vs →
    Loose (symTys t.shape.root) vs
  | .leaf t, vs, hw, hp, hv => by
    rw [Anywhere] at hp
    exact .inl ⟨_, _, leaf_at (a := t.loc.begin) (b := t.loc.stop)
      (by rw [Placed]; exact ⟨Nat.le_refl _, hp, Nat.le_refl _⟩) hv⟩
  | .node r kids, vs, hw, hp, hv => by
    rw [Anywhere] at hp
    split at hp
    · rename_i hc
      rw [Evals] at hv
      obtain ⟨ρ, o, h1, h2, h3, vss, h4, h5⟩ := hv
      obtain ⟨ss, hs, hr, hk⟩ := wf_node hw h1
      rw [show (TTree.node r kids).shape.root = some (.n ρ.lhs) by rw [TTree.shape, Tree.root, h1]; rfl]
      have hl := evalsL_loose kids hk hp h4
      rw [hr, List.map_map] at hl
      rw [isContents, h1] at hc
      exact contents_loose h1 h2 hc hs hl h5
    · obtain ⟨a, b, hp⟩ := hp
      exact .inl ⟨a, b, evals_node r kids hw hp hv⟩
termination_by t => (sizeOf t, 1)
/-- The same for a list. -/
theorem evalsL_loose {ext : BldExt} : ∀ (ts : List TTree) {vss : List (List Atom)}, wfL (shapeL ts) = true → anywhereL ts →
    evalsL ext ts vss → LooseL ((rootsL (shapeL ts)).map symTys) vss
  | [], vss, _, _, hv => by
    rw [evalsL] at hv
    subst hv
    trivial
  | t :: ts, vss, hw, hp, hv => by
    rw [evalsL] at hv
    rw [anywhereL] at hp
    rw [shapeL, wfL, Bool.and_eq_true] at hw
    obtain ⟨v, vs, rfl, h1, h2⟩ := hv
    exact ⟨evals_loose t hw.1 hp.1 h1, evalsL_loose ts hw.2 hp.2 h2⟩
termination_by ts => (sizeOf ts, 0)
end

end Verif.Grammar
