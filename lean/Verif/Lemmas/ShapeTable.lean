import Verif.Spec.Calls
import Verif.Lemmas.ShapeFn
import Verif.Lemmas.ValueTable
/-!
The kinds of nodes in the values of all nonterminals, and that the productions keep to them.
-/
namespace Verif
open Builder Shape Grammar

/-- The components of the values of the nonterminals. -/
def ntAbs : List (List Abs) := [
  -- program
  [.onode topK true],
  -- top_compstmt
  [.onode topK true],
  -- top_stmts
  [.nodes topK false],
  -- top_stmt
  [.node topK],
  -- begin_block
  [.tok, .onode topK true, .tok],
  -- bodystmt
  [.onode bodyK true],
  -- compstmt
  [.onode stmtK true],
  -- stmts
  [.nodes stmtK false],
  -- stmt_or_begin
  [.node stmtK],
  -- stmt
  [.node stmtK],
  -- command_asgn
  [.node (assignedK ||| ks [.AndAsgn, .CSend, .Def, .Defs, .OpAsgn, .OrAsgn, .Send])],
  -- command_rhs
  [.node (assignedK ||| sendsK ||| ks [.AndAsgn, .Block, .Def, .Defs, .Numblock, .OpAsgn, .OrAsgn, .Rescue, .Super, .Yield])],
  -- expr
  [.node exprOrVoidK],
  -- def_name
  [.tok],
  -- defn_head
  [.tok, .tok],
  -- defs_head
  [.tok, .node defineeK, .tok, .tok],
  -- expr_value
  [.node exprK],
  -- expr_value_do
  [.node exprK, .tok],
  -- command_call
  [.node (sendsK ||| ks [.Block, .Break, .Next, .Numblock, .Return, .Super, .Yield, .ReturnC, .BreakC, .NextC])],
  -- block_command
  [.node (sendsK ||| ks [.Block, .Break, .Next, .Numblock, .Return])],
  -- cmd_brace_block
  [.tok, .args (ks [.Args]), .onode stmtK true, .tok],
  -- fcall
  [.tok],
  -- command
  [.node (sendsK ||| ks [.Block, .Break, .Next, .Numblock, .Return, .Super, .Yield, .ReturnC, .BreakC, .NextC])],
  -- mlhs
  [.node (ks [.Mlhs])],
  -- mlhs_inner
  [.node (ks [.Mlhs])],
  -- mlhs_basic
  [.nodes mlhsItemK true],
  -- mlhs_item
  [.node (targetK ||| ks [.Mlhs])],
  -- mlhs_head
  [.nodes (targetK ||| ks [.Mlhs]) true],
  -- mlhs_post
  [.nodes (targetK ||| ks [.Mlhs]) true],
  -- mlhs_node
  [.node targetK],
  -- lhs
  [.node targetK],
  -- cname
  [.tok],
  -- cpath
  [.node (ks [.Const])],
  -- fname
  [.tok],
  -- fitem
  [.node symK],
  -- undef_list
  [.nodes symK true],
  -- op
  [.tok],
  -- reswords
  [.tok],
  -- arg
  [.node valueOrVoidK],
  -- relop
  [.tok],
  -- rel_expr
  [.node (ks [.Send])],
  -- arg_value
  [.node valueK],
  -- aref_args
  [.nodes valueSplatK false],
  -- arg_rhs
  [.node rhsK],
  -- paren_args
  [.tok, .nodes (jumpArgK ||| ks [.ForwardedArgs]) false, .tok],
  -- opt_paren_args
  [.parens callArgK],
  -- opt_call_args
  [.nodes jumpArgK false],
  -- call_args
  [.nodes jumpArgK true],
  -- command_args
  [.nodes jumpArgK true],
  -- block_arg
  [.node (ks [.BlockPass])],
  -- opt_block_arg
  [.nodes (ks [.BlockPass]) false],
  -- args
  [.nodes valueSplatK true],
  -- mrhs_arg
  [.node valueK],
  -- mrhs
  [.nodes valueSplatK true],
  -- primary
  [.node (primaryK ||| voidK)],
  -- primary_value
  [.node primaryK],
  -- k_begin
  [.tok],
  -- k_if
  [.tok],
  -- k_unless
  [.tok],
  -- k_while
  [.tok],
  -- k_until
  [.tok],
  -- k_case
  [.tok],
  -- k_for
  [.tok],
  -- k_class
  [.tok],
  -- k_module
  [.tok],
  -- k_def
  [.tok],
  -- k_do
  [.tok],
  -- k_do_block
  [.tok],
  -- k_rescue
  [.tok],
  -- k_ensure
  [.tok],
  -- k_when
  [.tok],
  -- k_else
  [.tok],
  -- k_elsif
  [.tok],
  -- k_end
  [.tok],
  -- k_return
  [.tok],
  -- then
  [.tok],
  -- do
  [.tok],
  -- if_tail
  [.tail stmtK],
  -- opt_else
  [.otok true true, .onode stmtK true],
  -- for_var
  [.node (targetK ||| ks [.Mlhs])],
  -- f_marg
  [.node (ks [.Arg, .MlhsP])],
  -- f_marg_list
  [.nodes (ks [.Arg, .MlhsP]) true],
  -- f_margs
  [.nodes destrK true],
  -- f_rest_marg
  [.node (ks [.Restarg])],
  -- f_any_kwrest
  [.nodes (ks [.Kwnilarg, .Kwrestarg]) true],
  -- f_eq
  [.tok],
  -- block_args_tail
  [.nodes (ks [.Blockarg, .Kwarg, .Kwnilarg, .Kwoptarg, .Kwrestarg]) true],
  -- opt_block_args_tail
  [.nodes (ks [.Blockarg, .Kwarg, .Kwnilarg, .Kwoptarg, .Kwrestarg]) false],
  -- excessed_comma
  [.tok],
  -- block_param
  [.nodes (ks [.Arg, .Blockarg, .Kwarg, .Kwnilarg, .Kwoptarg, .Kwrestarg, .Optarg, .Procarg0, .Restarg, .MlhsP]) true],
  -- opt_block_param
  [.onode (ks [.Args]) true],
  -- block_param_def
  [.onode (ks [.Args]) false],
  -- opt_bv_decl
  [.nodes (ks [.Shadowarg]) false],
  -- bv_decls
  [.nodes (ks [.Shadowarg]) true],
  -- bvar
  [.node (ks [.Shadowarg])],
  -- lambda
  [.node blocksK],
  -- f_larglist
  [.onode (ks [.Args]) true],
  -- lambda_body
  [.tok, .onode bodyK true, .tok],
  -- do_block
  [.tok, .args (ks [.Args]), .onode bodyK true, .tok],
  -- block_call
  [.node (sendsK ||| ks [.Block, .Break, .Next, .Numblock, .Return])],
  -- method_call
  [.node (sendsK ||| ks [.Index, .Super, .ZSuper])],
  -- brace_block
  [.tok, .args (ks [.Args]), .onode bodyK true, .tok],
  -- brace_body
  [.args (ks [.Args]), .onode stmtK true],
  -- do_body
  [.args (ks [.Args]), .onode bodyK true],
  -- case_args
  [.nodes valueSplatK true],
  -- case_body
  [.nodes (ks [.When]) true, .otok true true, .onode stmtK true],
  -- cases
  [.nodes (ks [.When]) false, .otok true true, .onode stmtK true],
  -- p_case_body
  [.nodes (ks [.InPattern]) true, .otok true true, .onode stmtK true],
  -- p_cases
  [.nodes (ks [.InPattern]) false, .otok true true, .onode stmtK true],
  -- p_top_expr
  [.node patternK, .onode (ks [.IfGuard, .UnlessGuard]) true],
  -- p_top_expr_body
  [.node patternK],
  -- p_expr
  [.node patternK],
  -- p_as
  [.node patternK],
  -- p_alt
  [.node (keywordVarK ||| numericK ||| ks [.Array, .ArrayPattern, .ArrayPatternWithTail, .Begin, .Block, .Const, .ConstPattern, .Dstr, .Dsym, .Erange, .FindPattern, .HashPattern, .Heredoc, .Irange, .MatchAlt, .MatchVar, .Numblock, .Pin, .Regexp, .Str, .Sym, .XHeredoc, .Xstr])],
  -- p_lparen
  [.tok],
  -- p_lbracket
  [.tok],
  -- p_expr_basic
  [.node (keywordVarK ||| numericK ||| ks [.Array, .ArrayPattern, .ArrayPatternWithTail, .Begin, .Block, .Const, .ConstPattern, .Dstr, .Dsym, .Erange, .FindPattern, .HashPattern, .Heredoc, .Irange, .MatchVar, .Numblock, .Pin, .Regexp, .Str, .Sym, .XHeredoc, .Xstr])],
  -- p_args
  [.nodes patternItemK true, .otok true true],
  -- p_args_head
  [.nodes patternK true, .otok false true],
  -- p_args_tail
  [.nodes patternItemK true],
  -- p_find
  [.nodes patternItemK true],
  -- p_rest
  [.node (ks [.MatchRest])],
  -- p_args_post
  [.nodes patternK true],
  -- p_arg
  [.node patternK],
  -- p_kwargs
  [.nodes (ks [.MatchNilPattern, .MatchRest, .MatchVar, .Pair]) true],
  -- p_kwarg
  [.nodes (ks [.MatchVar, .Pair]) true],
  -- p_kw
  [.node (ks [.MatchVar, .Pair])],
  -- p_kw_label
  [.label strPartK],
  -- p_kwrest
  [.nodes (ks [.MatchRest]) true],
  -- p_kwnorest
  [.tok, .tok],
  -- p_any_kwrest
  [.nodes (ks [.MatchNilPattern, .MatchRest]) true],
  -- p_value
  [.node (keywordVarK ||| numericK ||| ks [.Array, .Block, .Const, .Dstr, .Dsym, .Erange, .Heredoc, .Irange, .Numblock, .Pin, .Regexp, .Str, .Sym, .XHeredoc, .Xstr])],
  -- p_primitive
  [.node (keywordVarK ||| numericK ||| ks [.Array, .Block, .Dstr, .Dsym, .Heredoc, .Numblock, .Regexp, .Str, .Sym, .XHeredoc, .Xstr])],
  -- p_variable
  [.node (ks [.MatchVar])],
  -- p_var_ref
  [.node (ks [.Pin])],
  -- p_expr_ref
  [.node (ks [.Pin])],
  -- p_const
  [.node (ks [.Const])],
  -- opt_rescue
  [.nodes (ks [.RescueBody]) false],
  -- exc_list
  [.nodes valueSplatK false],
  -- exc_var
  [.exc targetK],
  -- opt_ensure
  [.otok true true, .onode stmtK true],
  -- literal
  [.node (numericK ||| ks [.Dsym, .Sym])],
  -- strings
  [.node stringsK],
  -- string
  [.nodes stringsK true],
  -- string1
  [.node stringsK],
  -- xstring
  [.node (ks [.XHeredoc, .Xstr])],
  -- regexp
  [.node (ks [.Regexp])],
  -- words
  [.node (ks [.Array])],
  -- word_list
  [.nodes (ks [.Dstr, .Str]) false],
  -- word
  [.nodes strPartK true],
  -- symbols
  [.node (ks [.Array])],
  -- symbol_list
  [.nodes (ks [.Dstr, .Str]) false],
  -- qwords
  [.node (ks [.Array])],
  -- qsymbols
  [.node (ks [.Array])],
  -- qword_list
  [.nodes (ks [.Str]) false],
  -- qsym_list
  [.nodes (ks [.Sym]) false],
  -- string_contents
  [.nodes strPartK false],
  -- xstring_contents
  [.nodes strPartK false],
  -- regexp_contents
  [.nodes strPartK false],
  -- string_content
  [.node strPartK],
  -- string_dvar
  [.node (ks [.BackRef, .Cvar, .Gvar, .Ivar, .NthRef])],
  -- symbol
  [.node symK],
  -- ssym
  [.node (ks [.Sym])],
  -- sym
  [.tok],
  -- dsym
  [.node symK],
  -- numeric
  [.node numericK],
  -- simple_numeric
  [.node numericK],
  -- nonlocal_var
  [.node (ks [.Cvar, .Gvar, .Ivar])],
  -- user_variable
  [.node userVarK],
  -- keyword_variable
  [.node keywordVarK],
  -- var_ref
  [.node (keywordVarK ||| userVarK ||| ks [.Send0])],
  -- var_lhs
  [.node (ks [.LvasgnT, .IvasgnT, .GvasgnT, .CvasgnT, .CasgnT])],
  -- backref
  [.node (ks [.BackRef, .NthRef])],
  -- superclass
  [.otok true true, .onode exprK true],
  -- f_opt_paren_args
  [.onode (ks [.Args]) true],
  -- f_paren_args
  [.onode (ks [.Args]) false],
  -- f_arglist
  [.onode (ks [.Args]) true],
  -- args_tail
  [.nodes (ks [.Blockarg, .ForwardArg, .Kwarg, .Kwnilarg, .Kwoptarg, .Kwrestarg]) true],
  -- opt_args_tail
  [.nodes (ks [.Blockarg, .ForwardArg, .Kwarg, .Kwnilarg, .Kwoptarg, .Kwrestarg]) false],
  -- f_args
  [.nodes (ks [.Arg, .Blockarg, .ForwardArg, .Kwarg, .Kwnilarg, .Kwoptarg, .Kwrestarg, .Optarg, .Restarg, .MlhsP]) false],
  -- args_forward
  [.tok],
  -- f_bad_arg
  [.never],
  -- f_norm_arg
  [.tok],
  -- f_arg_asgn
  [.tok],
  -- f_arg_item
  [.node (ks [.Arg, .MlhsP])],
  -- f_arg
  [.nodes (ks [.Arg, .MlhsP]) true],
  -- f_label
  [.tok],
  -- f_kw
  [.node (ks [.Kwarg, .Kwoptarg])],
  -- f_block_kw
  [.node (ks [.Kwarg, .Kwoptarg])],
  -- f_block_kwarg
  [.nodes (ks [.Kwarg, .Kwoptarg]) true],
  -- f_kwarg
  [.nodes (ks [.Kwarg, .Kwoptarg]) true],
  -- kwrest_mark
  [.tok],
  -- f_no_kwarg
  [.nodes (ks [.Kwnilarg]) true],
  -- f_kwrest
  [.nodes (ks [.Kwrestarg]) true],
  -- f_opt
  [.node (ks [.Optarg])],
  -- f_block_opt
  [.node (ks [.Optarg])],
  -- f_block_optarg
  [.nodes (ks [.Optarg]) true],
  -- f_optarg
  [.nodes (ks [.Optarg]) true],
  -- restarg_mark
  [.tok],
  -- f_rest_arg
  [.nodes (ks [.Restarg]) true],
  -- blkarg_mark
  [.tok],
  -- f_block_arg
  [.node (ks [.Blockarg])],
  -- opt_f_block_arg
  [.nodes (ks [.Blockarg]) false],
  -- singleton
  [.node defineeK],
  -- assoc_list
  [.nodes pairsK false],
  -- assocs
  [.nodes pairsK true],
  -- assoc
  [.node pairsK],
  -- operation
  [.tok],
  -- operation2
  [.tok],
  -- operation3
  [.tok],
  -- dot_or_colon
  [.tok],
  -- call_op
  [.tok],
  -- call_op2
  [.tok],
  -- opt_terms
  [],
  -- opt_nl
  [],
  -- rparen
  [.tok],
  -- rbracket
  [.tok],
  -- rbrace
  [.tok],
  -- trailer
  [],
  -- term
  [.tok],
  -- terms
  [],
  -- none
  []]

/-- The components of the value of a symbol. -/
def symAbs : Sym → List Abs
  | .t _ => [.tok]
  | .n x => (ntAbs[x]?).getD [.never]

/-- The components of `$1, $2, …`. -/
def slotAbs : List Item → List (List Abs)
  | [] => []
  | .a _ :: is => [] :: slotAbs is
  | .t t :: is => symAbs (.t t) :: slotAbs is
  | .n x :: is => symAbs (.n x) :: slotAbs is
  | .err :: is => [.never] :: slotAbs is

mutual
/-- The result of an expression. -/
def absEx (tss : List (List Abs)) : Ex → Option Abs
  | .fld n i => (tss[n - 1]?).bind (·[i]?)
  | .call f es => (absExs tss es).bind f.gives
/-- The same for a list. -/
def absExs (tss : List (List Abs)) : List Ex → Option (List Abs)
  | [] => some []
  | e :: es => (absEx tss e).bind fun a => (absExs tss es).map (a :: ·)
end
/-- The components of `$$`. -/
def absOut (tss : List (List Abs)) : ValOut → Option (List Abs)
  | .copy n => tss[n - 1]?
  | .mk es => absExs tss es

/-- Values of the given components give `$$` with the given components. -/
def absFits (tss : List (List Abs)) (o : ValOut) (as : List Abs) : Bool :=
  tss.any (·.contains .never) || (match absOut tss o with
    | some bs => leL bs as
    | none => false)

/-- `command`s that take a block. -/
def plainK : Kinds := ks [.Send, .Send0, .CSend, .CSend0, .Super, .Yield, .ReturnC, .BreakC, .NextC]

/-- The same for a production: the first component of `block_call: command do_block` is a plain command. -/
def ruleSlots (ρ : Rule) : List (List Abs) :=
  if ρ.doBlockCall then [.node plainK] :: (slotAbs ρ.rhs).tail else slotAbs ρ.rhs

theorem rules_abs : (rules.zip outs).all (fun p => p.1.rhs.any Item.refuses ||
    absFits (ruleSlots p.1) p.2.2 (symAbs (.n p.1.lhs))) = true := by decide +kernel

/-- Calls with arguments and no block. -/
theorem plain_abs : (rules.zip outs).all (fun p => !p.1.plainCommand ||
    absFits (slotAbs p.1.rhs) p.2.2 [.node (ks [.Send, .Send0, .CSend, .CSend0, .Super, .Yield])]) = true := by decide +kernel
/-- One of them as the argument of a jump. -/
theorem loneArg_abs : (rules.zip outs).all (fun p => !p.1.loneCommand ||
    absFits ([.node (ks [.Send, .Send0, .CSend, .CSend0, .Super, .Yield])] :: (slotAbs p.1.rhs).tail) p.2.2
      [.nodes jumpCalleeK true]) = true := by decide +kernel
/-- The jump. -/
theorem jump_abs : (rules.zip outs).all (fun p => !p.1.jumpCommand ||
    (match p.1.rhs with
      | [.t _, .n _, .a _] => true
      | [.n _, .n _, .a _] => true
      | _ => false) &&
    absFits [[.tok], [.nodes jumpCalleeK true], []] p.2.2 [.node plainK]) = true := by decide +kernel

/-- Its keyword. -/
theorem jump_tok : rules.all (fun ρ => !ρ.jumpCommand || (match ρ.rhs with
    | .n x :: _ => symAbs (.n x) == [.tok]
    | _ => true)) = true := by decide +kernel

theorem rule_mem {r : Nat} {ρ : Rule} {o : Nat × ValOut} (h1 : rules[r]? = some ρ) (h2 : outs[r]? = some o) :
    (ρ, o) ∈ rules.zip outs := by
  rw [List.mem_iff_getElem?]
  exact ⟨r, by rw [List.getElem?_zip_eq_some]; exact ⟨h1, h2⟩⟩

/-- Values with components as described. -/
def HasLL : List (List Abs) → List (List Atom) → Prop
  | [], [] => True
  | t :: ts, x :: xs => HasL t x ∧ HasLL ts xs
  | _, _ => False

theorem HasL.get {as : List Abs} {xs : List Atom} (h : HasL as xs) {i : Nat} {a : Abs} {x : Atom} (h1 : as[i]? = some a)
    (h2 : xs[i]? = some x) : a.Has x := by
  induction as generalizing xs i with
  | nil => cases h1
  | cons b bs ih =>
    obtain ⟨y, ys, rfl, g1, g2⟩ := hasL_cons h
    cases i with
    | zero => cases h1; cases h2; exact g1
    | succ i => exact ih g2 h1 h2
theorem HasLL.get {ts : List (List Abs)} {vs : List (List Atom)} (h : HasLL ts vs) {i : Nat} {as : List Abs} {xs : List Atom}
    (h1 : ts[i]? = some as) (h2 : vs[i]? = some xs) : HasL as xs := by
  induction ts generalizing vs i with
  | nil => cases h1
  | cons b bs ih =>
    cases vs with
    | nil => exact absurd h id
    | cons v vs =>
      cases i with
      | zero => cases h1; cases h2; exact h.1
      | succ i => exact ih h.2 h1 h2
theorem HasL.noNever {as : List Abs} {xs : List Atom} (h : HasL as xs) : as.contains .never = false := by
  induction as generalizing xs with
  | nil => rfl
  | cons b bs ih =>
    obtain ⟨y, ys, rfl, g1, g2⟩ := hasL_cons h
    rw [List.contains_cons, ih g2, Bool.or_false, beq_eq_false_iff_ne]
    rintro rfl
    exact never_has g1
theorem HasLL.noNever {ts : List (List Abs)} {vs : List (List Atom)} (h : HasLL ts vs) : ts.any (·.contains .never) = false := by
  induction ts generalizing vs with
  | nil => rfl
  | cons b bs ih =>
    cases vs with
    | nil => exact absurd h id
    | cons v vs => rw [List.any_cons, h.1.noNever, ih h.2]; rfl

mutual
theorem absEx_sound {ext : BldExt} {tss : List (List Abs)} {vals : List (List Atom)} (hv : HasLL tss vals) :
    ∀ (e : Ex) {a : Abs} {x : Atom}, absEx tss e = some a → e.Gives ext vals x → a.Has x
  | .fld n i, a, x, h, hg => by
    rw [absEx] at h
    rw [Ex.Gives] at hg
    obtain ⟨as, h1, h2⟩ := Option.bind_eq_some_iff.1 h
    obtain ⟨xs, g1, g2⟩ := Option.bind_eq_some_iff.1 hg
    exact (hv.get h1 g1).get h2 g2
  | .call f es, a, x, h, hg => by
    rw [absEx] at h
    rw [Ex.Gives] at hg
    obtain ⟨as, h1, h2⟩ := Option.bind_eq_some_iff.1 h
    obtain ⟨xs, g1, indent, s, s', g2⟩ := hg
    have := fn_safe (ext := ext) (indent := indent) h2 (absExs_sound hv es h1 g1) s
    rw [g2] at this
    exact this x rfl
theorem absExs_sound {ext : BldExt} {tss : List (List Abs)} {vals : List (List Atom)} (hv : HasLL tss vals) :
    ∀ (es : List Ex) {as : List Abs} {xs : List Atom}, absExs tss es = some as → exGives ext vals es xs → HasL as xs
  | [], as, xs, h, hg => by
    rw [absExs] at h
    rw [exGives] at hg
    cases h
    subst hg
    trivial
  | e :: es, as, xs, h, hg => by
    rw [absExs] at h
    rw [exGives] at hg
    obtain ⟨a, h1, h2⟩ := Option.bind_eq_some_iff.1 h
    obtain ⟨bs, h3, rfl⟩ := Option.map_eq_some_iff.1 h2
    obtain ⟨y, ys, rfl, g1, g2⟩ := hg
    exact ⟨absEx_sound hv e h1 g1, absExs_sound hv es h3 g2⟩
end

theorem absOut_sound {ext : BldExt} {tss : List (List Abs)} {vals : List (List Atom)} (hv : HasLL tss vals) {o : ValOut}
    {as : List Abs} {xs : List Atom} (h : absOut tss o = some as) (hg : o.Gives ext vals xs) : HasL as xs := by
  cases o with
  | copy n => exact hv.get h hg
  | mk es => exact absExs_sound hv es h hg

theorem absFits_out {tss : List (List Abs)} {vals : List (List Atom)} (hv : HasLL tss vals) {o : ValOut} {as : List Abs}
    (h : absFits tss o as = true) : ∃ bs, absOut tss o = some bs ∧ leL bs as = true := by
  rw [absFits, hv.noNever, Bool.false_or] at h
  split at h
  · exact ⟨_, by assumption, h⟩
  · cases h
theorem absFits_sound {ext : BldExt} {tss : List (List Abs)} {vals : List (List Atom)} (hv : HasLL tss vals) {o : ValOut}
    {as : List Abs} {xs : List Atom} (h : absFits tss o as = true) (hg : o.Gives ext vals xs) : HasL as xs := by
  obtain ⟨bs, h1, h2⟩ := absFits_out hv h
  exact (absOut_sound hv h1 hg).le h2

mutual
/-- Every call made has arguments the function takes. -/
theorem absEx_calls {ext : BldExt} {tss : List (List Abs)} {vals : List (List Atom)} (hv : HasLL tss vals) :
    ∀ (e : Ex) {a : Abs} {f : BFn} {xs : List Atom}, absEx tss e = some a → e.Calls ext vals f xs →
      ∃ as b, f.gives as = some b ∧ HasL as xs
  | .fld n i, a, f, xs, h, hg => by
    rw [Ex.Calls] at hg
    exact hg.elim
  | .call g es, a, f, xs, h, hg => by
    rw [absEx] at h
    rw [Ex.Calls] at hg
    obtain ⟨as, h1, h2⟩ := Option.bind_eq_some_iff.1 h
    rcases hg with ⟨rfl, g1⟩ | g1
    · exact ⟨as, a, h2, absExs_sound hv es h1 g1⟩
    · exact absExs_calls hv es h1 g1
theorem absExs_calls {ext : BldExt} {tss : List (List Abs)} {vals : List (List Atom)} (hv : HasLL tss vals) :
    ∀ (es : List Ex) {as : List Abs} {f : BFn} {xs : List Atom}, absExs tss es = some as → exCalls ext vals es f xs →
      ∃ as b, f.gives as = some b ∧ HasL as xs
  | [], as, f, xs, h, hg => by
    rw [exCalls] at hg
    exact hg.elim
  | e :: es, as, f, xs, h, hg => by
    rw [absExs] at h
    rw [exCalls] at hg
    obtain ⟨a, h1, h2⟩ := Option.bind_eq_some_iff.1 h
    obtain ⟨bs, h3, rfl⟩ := Option.map_eq_some_iff.1 h2
    rcases hg with g1 | g1
    · exact absEx_calls hv e h1 g1
    · exact absExs_calls hv es h3 g1
end

theorem absFits_calls {ext : BldExt} {tss : List (List Abs)} {vals : List (List Atom)} (hv : HasLL tss vals) {o : ValOut}
    {as : List Abs} {f : BFn} {xs : List Atom} (h : absFits tss o as = true) (hg : o.Calls ext vals f xs) :
    ∃ as b, f.gives as = some b ∧ HasL as xs := by
  obtain ⟨bs, h1, h2⟩ := absFits_out hv h
  cases o with
  | copy n => exact absurd hg id
  | mk es => exact absExs_calls hv es h1 hg

/-- The values of the symbols, together with those of the actions between them. -/
theorem hasLL_slots {rhs : List Item} {ss : List Sym} {vss : List (List Atom)} (hs : syms rhs = some ss)
    (h : HasLL (ss.map symAbs) vss) : HasLL (slotAbs rhs) (slots rhs vss) := by
  induction rhs generalizing ss vss with
  | nil => trivial
  | cons i is ih =>
    cases i with
    | a act => exact ⟨trivial, ih hs h⟩
    | err => cases hs
    | t tok =>
      rw [syms, Option.map_eq_some_iff] at hs
      obtain ⟨ss', h1, rfl⟩ := hs
      cases vss with
      | nil => exact absurd h id
      | cons v vs => exact ⟨h.1, ih h1 h.2⟩
    | n x =>
      rw [syms, Option.map_eq_some_iff] at hs
      obtain ⟨ss', h1, rfl⟩ := hs
      cases vss with
      | nil => exact absurd h id
      | cons v vs => exact ⟨h.1, ih h1 h.2⟩

/-- The first value replaced by what is known of it. -/
theorem hasLL_first {ρ : Rule} {x : NT} {ss : List Sym} {as : List Abs} {v : List Atom} {vss : List (List Atom)}
    (hs : syms ρ.rhs = some ss) (h : HasLL (ss.map symAbs) (v :: vss)) (hv : HasL as v)
    (hx : (∃ is, ρ.rhs = .n x :: is)) : HasLL (as :: (slotAbs ρ.rhs).tail) (slots ρ.rhs (v :: vss)) := by
  obtain ⟨is, hx⟩ := hx
  have := hasLL_slots hs h
  rw [hx] at this ⊢
  exact ⟨hv, this.2⟩

/-- Productions whose first symbol matters start with it. -/
theorem first_rules : rules.all (fun ρ => !(ρ.doBlockCall || ρ.loneCommand) || (match ρ.rhs with
    | .n _ :: _ => true
    | _ => false)) = true := by decide +kernel
theorem first_rule {r : Nat} {ρ : Rule} (h1 : rules[r]? = some ρ) (h : (ρ.doBlockCall || ρ.loneCommand) = true) :
    ∃ x is, ρ.rhs = .n x :: is := by
  have := List.all_eq_true.1 first_rules ρ (List.mem_of_getElem? h1)
  rw [h, Bool.not_true, Bool.false_or] at this
  split at this
  · exact ⟨_, _, by assumption⟩
  · cases this

/-- The root of the tree has the components described. -/
def rootAbs : Option Sym → List Abs
  | some s => symAbs s
  | none => [.never]

theorem refuses_any {ρ : Rule} (h : ρ.rhs.all (fun i => !i.refuses) = true) : ρ.rhs.any Item.refuses = false := by
  rw [List.any_eq_false]; intro i hi; have := List.all_eq_true.1 h i hi; simpa using this

theorem rule_any {t : TTree} {p : Rule → Bool} (h : t.rule.any p = true) : ∃ r kids ρ, t = .node r kids ∧ rules[r]? = some ρ ∧ p ρ = true := by
  cases t with
  | leaf => cases h
  | node r kids =>
    rw [Option.any_eq_true] at h
    obtain ⟨ρ, h1, h2⟩ := h
    exact ⟨r, kids, ρ, rfl, h1, h2⟩

/-- The first slots of a production, given what is known of the first tree. -/
def FirstFits (ρ : Rule) (vss : List (List Atom)) : Prop :=
  ρ.doBlockCall = true → ∃ v vs, vss = v :: vs ∧ HasL [.node plainK] v

theorem hasLL_rule {r : Nat} {ρ : Rule} {ss : List Sym} {vss : List (List Atom)} (h1 : rules[r]? = some ρ) (hs : syms ρ.rhs = some ss)
    (h : HasLL (ss.map symAbs) vss) (hf : FirstFits ρ vss) : HasLL (ruleSlots ρ) (slots ρ.rhs vss) := by
  rw [ruleSlots]
  split
  · rename_i hd
    obtain ⟨v, vs, rfl, hv⟩ := hf hd
    obtain ⟨x, is, hx⟩ := first_rule h1 (by rw [hd]; rfl)
    exact hasLL_first hs h hv ⟨is, hx⟩
  · exact hasLL_slots hs h

theorem fits_rule {r : Nat} {ρ : Rule} {o : Nat × ValOut} (h1 : rules[r]? = some ρ) (h2 : outs[r]? = some o)
    (h3 : ρ.rhs.all (fun i => !i.refuses) = true) : absFits (ruleSlots ρ) o.2 (symAbs (.n ρ.lhs)) = true := by
  have := List.all_eq_true.1 rules_abs _ (rule_mem h1 h2)
  dsimp only at this
  rwa [refuses_any h3, Bool.false_or] at this

/-- The values of the trees below a production. -/
def Below (ext : BldExt) (kids : List TTree) : Prop := ∀ vss, evalsL ext kids vss → HasLL ((rootsL (shapeL kids)).map rootAbs) vss

theorem roots_abs (ss : List Sym) : (ss.map some).map rootAbs = ss.map symAbs := by
  rw [List.map_map]; rfl

/-- The value of `foo 1` and the like. -/
theorem plain_has {ext : BldExt} {r : Nat} {kids : List TTree} (hw : (TTree.node r kids).shape.wf = true) (hb : Below ext kids)
    {ρ : Rule} (h1 : rules[r]? = some ρ) (hp : ρ.plainCommand = true) {vs : List Atom} (he : Evals ext (.node r kids) vs) :
    HasL [.node (ks [.Send, .Send0, .CSend, .CSend0, .Super, .Yield])] vs := by
  rw [Evals] at he
  obtain ⟨ρ', o, h1', h2, h3, vss, h4, h5⟩ := he
  rw [h1] at h1'; cases h1'
  obtain ⟨ss, g1, g2, g3⟩ := wf_node hw h1
  have := List.all_eq_true.1 plain_abs _ (rule_mem h1 h2)
  dsimp only at this
  rw [hp, Bool.not_true, Bool.false_or] at this
  have hk := hb vss h4
  rw [g2, roots_abs] at hk
  exact absFits_sound (hasLL_slots g1 hk) this h5

theorem evalsL_cons {ext : BldExt} {t : TTree} {ts : List TTree} {vss : List (List Atom)} (h : evalsL ext (t :: ts) vss) :
    ∃ v vs, vss = v :: vs ∧ Evals ext t v ∧ evalsL ext ts vs := by
  rwa [evalsL] at h
theorem evalsL_nil {ext : BldExt} {vss : List (List Atom)} (h : evalsL ext [] vss) : vss = [] := by
  rwa [evalsL] at h

/-- The tree has no other values than its root can have. -/
def Fine (ext : BldExt) (t : TTree) : Prop := ∀ vs, Evals ext t vs → HasL (rootAbs t.shape.root) vs
/-- All the trees below have. -/
def FineL (ext : BldExt) : List TTree → Prop
  | [] => True
  | t :: ts => Fine ext t ∧ FineL ext ts

theorem FineL.below {ext : BldExt} {kids : List TTree} (h : FineL ext kids) : Below ext kids := by
  induction kids with
  | nil => intro vss he; rw [evalsL_nil he]; trivial
  | cons t ts ih =>
    intro vss he
    obtain ⟨v, vs, rfl, h1, h2⟩ := evalsL_cons he
    exact ⟨h.1 v h1, ih h.2 vs h2⟩

mutual
/-- Every tree in it is as described. -/
def FineAll (ext : BldExt) : TTree → Prop
  | .leaf t => Fine ext (.leaf t)
  | .node r kids => Fine ext (.node r kids) ∧ FineAllL ext kids
def FineAllL (ext : BldExt) : List TTree → Prop
  | [] => True
  | t :: ts => FineAll ext t ∧ FineAllL ext ts
end
theorem FineAll.fine {ext : BldExt} {t : TTree} (h : FineAll ext t) : Fine ext t := by
  cases t with
  | leaf t => rwa [FineAll] at h
  | node r kids => rw [FineAll] at h; exact h.1
theorem FineAllL.fine {ext : BldExt} {ts : List TTree} (h : FineAllL ext ts) : FineL ext ts := by
  induction ts with
  | nil => trivial
  | cons t ts ih => rw [FineAllL] at h; exact ⟨h.1.fine, ih h.2⟩
theorem wfL_cons {t : Tree} {ts : List Tree} (h : wfL (t :: ts) = true) : t.wf = true ∧ wfL ts = true := by
  rwa [wfL, Bool.and_eq_true] at h

/-- The value of `return foo 1` and the like. -/
theorem jump_has {ext : BldExt} {t : TTree} (hw : t.shape.wf = true) (hf : FineAll ext t) (hj : t.jump = true) {vs : List Atom}
    (he : Evals ext t vs) : HasL [.node plainK] vs := by
  rw [TTree.jump, Bool.and_eq_true] at hj
  obtain ⟨hj1, hj2⟩ := hj
  obtain ⟨r, kids, ρ, rfl, h1, hp⟩ := rule_any hj1
  rw [TTree.kids] at hj2
  split at hj2
  · rename_i k a
    rw [TTree.lone, Bool.and_eq_true] at hj2
    obtain ⟨hl1, hl2⟩ := hj2
    obtain ⟨r', kids', ρ', rfl, h1', hp'⟩ := rule_any hl1
    rw [TTree.kids] at hl2
    split at hl2
    · rename_i c
      obtain ⟨r2, kids2, ρ2, rfl, h12, hp2⟩ := rule_any hl2
      obtain ⟨ss, g1, g2, g3⟩ := wf_node hw h1
      rw [shapeL, shapeL, shapeL] at g3
      obtain ⟨g4, g5⟩ := wfL_cons g3
      obtain ⟨g5, -⟩ := wfL_cons g5
      obtain ⟨ss', k1, k2, k3⟩ := wf_node g5 h1'
      rw [shapeL, shapeL] at k3
      obtain ⟨k4, -⟩ := wfL_cons k3
      simp only [FineAll, FineAllL] at hf
      obtain ⟨-, f1, ⟨f2, ⟨f3, f4⟩, -⟩, -⟩ := hf
      rw [Evals] at he
      obtain ⟨ρ0, o, e1, e2, e3, vss, e4, e5⟩ := he
      rw [h1] at e1; cases e1
      obtain ⟨v1, w1, rfl, e6, e7⟩ := evalsL_cons e4
      obtain ⟨v2, w2, rfl, e9, e8⟩ := evalsL_cons e7
      cases evalsL_nil e8
      -- the argument
      have ha : HasL [.nodes jumpCalleeK true] v2 := by
        rw [Evals] at e9
        obtain ⟨ρ0, o', e1, e2', e3, vss, e4, e5⟩ := e9
        rw [h1'] at e1; cases e1
        obtain ⟨v3, w3, rfl, e6, e7⟩ := evalsL_cons e4
        cases evalsL_nil e7
        have hc := plain_has k4 f4.fine.below h12 hp2 e6
        have := List.all_eq_true.1 loneArg_abs _ (rule_mem h1' e2')
        dsimp only at this
        rw [hp', Bool.not_true, Bool.false_or] at this
        obtain ⟨x, is, hx⟩ := first_rule h1' (by rw [hp', Bool.or_true])
        have hk : HasLL (ss'.map symAbs) [v3] := by
          rw [← roots_abs, ← k2]
          exact ⟨f3 v3 e6, trivial⟩
        exact absFits_sound (hasLL_first k1 hk hc ⟨is, hx⟩) this e5
      have ht := f1.fine v1 e6
      have hk : rootAbs k.shape.root :: [rootAbs (TTree.node r' [TTree.node r2 kids2]).shape.root] = ss.map symAbs := by
        rw [← roots_abs, ← g2]; rfl
      have := List.all_eq_true.1 jump_abs _ (rule_mem h1 e2)
      dsimp only at this
      rw [hp, Bool.not_true, Bool.false_or, Bool.and_eq_true] at this
      obtain ⟨j1, j2⟩ := this
      split at j1
      · rename_i t x ac hr
        rw [hr] at g1 e5
        cases g1
        rw [List.map_cons, List.cons.injEq] at hk
        rw [hk.1] at ht
        exact absFits_sound (tss := [[.tok], [.nodes jumpCalleeK true], []]) (vals := [v1, v2, []]) ⟨ht, ha, trivial, trivial⟩ j2 e5
      · rename_i t x ac hr
        rw [hr] at g1 e5
        cases g1
        rw [List.map_cons, List.cons.injEq] at hk
        rw [hk.1] at ht
        have := List.all_eq_true.1 jump_tok _ (List.mem_of_getElem? h1)
        rw [hp, Bool.not_true, Bool.false_or, hr] at this
        rw [eq_of_beq this] at ht
        exact absFits_sound (tss := [[.tok], [.nodes jumpCalleeK true], []]) (vals := [v1, v2, []]) ⟨ht, ha, trivial, trivial⟩ j2 e5
      · cases j1
    · cases hl2
  · cases hj2

theorem leaf_fine {ext : BldExt} {t : Token} : Fine ext (.leaf t) := by
  intro vs he
  rw [Evals] at he
  subst he
  exact ⟨trivial, trivial⟩

/-- The block of a `block_call` is given to a call. -/
theorem first_fits {ext : BldExt} {r : Nat} {kids : List TTree} {ρ : Rule} (h1 : rules[r]? = some ρ)
    (hw : wfL (shapeL kids) = true) (hb : (TTree.node r kids).blocksFit = true) (hf : FineAllL ext kids) {vss : List (List Atom)}
    (he : evalsL ext kids vss) : FirstFits ρ vss := by
  intro hd
  rw [TTree.blocksFit, h1, Bool.and_eq_true] at hb
  have hb := hb.1
  rw [Option.any_some, hd, Bool.not_true, Bool.false_or] at hb
  cases kids with
  | nil => cases hb
  | cons c cs =>
    rw [List.head?_cons, Option.any_some] at hb
    obtain ⟨v, vs, rfl, e1, e2⟩ := evalsL_cons he
    refine ⟨v, vs, rfl, ?_⟩
    rw [shapeL] at hw
    rw [FineAllL] at hf
    rw [Bool.or_eq_true] at hb
    rcases hb with hb | hb
    · obtain ⟨r', kids', ρ', rfl, h1', hp⟩ := rule_any hb
      have hf := hf.1
      rw [FineAll] at hf
      exact (plain_has (wfL_cons hw).1 hf.2.fine.below h1' hp e1).le (by decide +kernel)
    · exact jump_has (wfL_cons hw).1 hf.1 hb e1

theorem node_fine {ext : BldExt} {r : Nat} {kids : List TTree} (hw : (TTree.node r kids).shape.wf = true)
    (hb : (TTree.node r kids).blocksFit = true) (hf : FineAllL ext kids) : Fine ext (.node r kids) := by
  intro vs he
  rw [Evals] at he
  obtain ⟨ρ, o, h1, h2, h3, vss, h4, h5⟩ := he
  obtain ⟨ss, g1, g2, g3⟩ := wf_node hw h1
  have hk := hf.fine.below vss h4
  rw [g2, roots_abs] at hk
  have := absFits_sound (hasLL_rule h1 g1 hk (first_fits h1 g3 hb hf h4)) (fits_rule h1 h2 h3) h5
  rw [TTree.shape, Tree.root, h1]
  exact this

mutual
theorem fineAll {ext : BldExt} : ∀ t : TTree, t.shape.wf = true → t.blocksFit = true → FineAll ext t
  | .leaf t, _, _ => by rw [FineAll]; exact leaf_fine
  | .node r kids, hw, hb => by
    have hk : FineAllL ext kids := by
      refine fineAllL kids ?_ ?_
      · rw [TTree.shape, Tree.wf] at hw
        split at hw
        · cases hw
        · rw [Bool.and_eq_true] at hw; exact hw.2
      · rw [TTree.blocksFit, Bool.and_eq_true] at hb; exact hb.2
    rw [FineAll]
    exact ⟨node_fine hw hb hk, hk⟩
theorem fineAllL {ext : BldExt} : ∀ ts : List TTree, wfL (shapeL ts) = true → blocksFitL ts = true → FineAllL ext ts
  | [], _, _ => by rw [FineAllL]; trivial
  | t :: ts, hw, hb => by
    rw [shapeL] at hw
    rw [blocksFitL, Bool.and_eq_true] at hb
    rw [FineAllL]
    exact ⟨fineAll t (wfL_cons hw).1 hb.1, fineAllL ts (wfL_cons hw).2 hb.2⟩
end

theorem node_calls {ext : BldExt} {r : Nat} {kids : List TTree} (hw : (TTree.node r kids).shape.wf = true)
    (hb : (TTree.node r kids).blocksFit = true) {ρ : Rule} {o : Nat × ValOut} (h1 : rules[r]? = some ρ) (h2 : outs[r]? = some o)
    (h3 : ρ.rhs.all (fun i => !i.refuses) = true) {vss : List (List Atom)} (h4 : evalsL ext kids vss) {f : BFn} {xs : List Atom}
    (h5 : o.2.Calls ext (slots ρ.rhs vss) f xs) : ∃ as b, f.gives as = some b ∧ HasL as xs := by
  obtain ⟨ss, g1, g2, g3⟩ := wf_node hw h1
  have hf : FineAllL ext kids := by
    have := fineAll (ext := ext) _ hw hb
    rw [FineAll] at this
    exact this.2
  have hk := hf.fine.below vss h4
  rw [g2, roots_abs] at hk
  exact absFits_calls (hasLL_rule h1 g1 hk (first_fits h1 g3 hb hf h4)) (fits_rule h1 h2 h3) h5

mutual
/-- Every call made for a derivation has arguments the function takes. -/
theorem tree_calls {ext : BldExt} {f : BFn} {xs : List Atom} : ∀ t : TTree, t.shape.wf = true → t.blocksFit = true →
    t.Calls ext f xs → ∃ as b, f.gives as = some b ∧ HasL as xs
  | .leaf t, _, _, h => by rw [TTree.Calls] at h; exact h.elim
  | .node r kids, hw, hb, h => by
    rw [TTree.Calls] at h
    rcases h with ⟨ρ, o, h1, h2, h3, vss, h4, h5⟩ | h
    · exact node_calls hw hb h1 h2 h3 h4 h5
    · refine treeL_calls kids ?_ ?_ h
      · rw [TTree.shape, Tree.wf] at hw
        split at hw
        · cases hw
        · rw [Bool.and_eq_true] at hw; exact hw.2
      · rw [TTree.blocksFit, Bool.and_eq_true] at hb; exact hb.2
theorem treeL_calls {ext : BldExt} {f : BFn} {xs : List Atom} : ∀ ts : List TTree, wfL (shapeL ts) = true → blocksFitL ts = true →
    callsL ext ts f xs → ∃ as b, f.gives as = some b ∧ HasL as xs
  | [], _, _, h => by rw [callsL] at h; exact h.elim
  | t :: ts, hw, hb, h => by
    rw [shapeL] at hw
    rw [blocksFitL, Bool.and_eq_true] at hb
    rw [callsL] at h
    rcases h with h | h
    · exact tree_calls t (wfL_cons hw).1 hb.1 h
    · exact treeL_calls ts (wfL_cons hw).2 hb.2 h
end
end Verif
