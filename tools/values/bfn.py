# name: (param, sig, result, kind, body, proof, doc)
B=[]
def b(name,sig,res,kind,body,proof,doc,param=None): B.append((name,sig.split(),res,kind,body,proof,doc,param))
# kind: p pure value expression, R Res, M BldM, B BldR; body yields the payload of the result atom
def easy(fn,sig,kind,doc,res='N',ext=False,at=None,name=None,hs='',param=None):
    xs=' '.join(f'x{i}' for i in range(len(sig.split())))
    hx=' '.join(f'h{i}' for i in range(len(sig.split())))
    call=f'{fn} {"ext " if ext else ""}{"p " if param else ""}{xs}'.strip()
    nm=name or fn
    a=at or (fn.rstrip('_')+'_at')
    b(nm,sig,res,kind,call,f'{a} {hx}{hs}',doc,param)
# plumbing
b('someT','T','O','p','some x0','h0','`Some(token)`')
b('someN','N','P','p','some x0','h0','`Some(node)`')
b('noneT','','O','p','none','h','`None` in place of a token')
b('noneN','','P','p','none','h','`None` in place of a node')
b('nilL','','L','p','[]','h','`vec![]`, `Box::default()`')
b('single','N','L','p','[x0]','Nodes.at_singleton h0','`vec![node]`')
b('append','L L','L','p','x0 ++ x1','Nodes.At.append h0 h1','`push` and `append`')
b('checked','N','N','B','valueExpr x0 *> pure x0','BldR.gives_any fun _ => BldR.gives_pure h0','`self.value_expr(&node)?`')
b('endlessName','T','T','B','endlessName x0','endlessName_at h0','`validate_endless_method_name`')
b('kwargName','T1','T1','B','kwargName ext x0','kwargName_at h0','`check_kwarg_name`')
b('singletonExpr','N','N','B','singletonExpr x0','singletonExpr_at h0','src/parser/parse.y:6651-6679')
b('argsType','P','A','B','argsType x0','argsType_at h0','`ArgsType::Numargs` or `ArgsType::Args`, src/parser/parse.y:4107-4111, 4463-4467, 4489-4493')
b('noParens','','G','p','(none, [], none)','⟨rfl, h⟩','src/parser/parse.y:2637-2646')
b('someParens','T L T','G','p','(some x0, x1, some x2)','⟨_, _, h0, h1, h2⟩','src/parser/parse.y:2647-2660')
b('noExc','','E','p','(none, none)','h','src/parser/parse.y:5485-5488')
b('someExc','T N','E','p','(some x0, some x1)','⟨_, h0, h1⟩','src/parser/parse.y:5479-5484')
b('elseTail','O P','I','p','(x0, x1)','else_tail_at h0 h1','src/parser/parse.y:3625-3631')
b('elsifTail','T N T P I','I','p','(some x0, some (condition x0 x1 x2 x3 x4.1 x4.2 none))','elsif_tail_at h0 h1 h2 h3 h4','src/parser/parse.y:3632-3655')
b('plainLabel','T1','K','p','.PlainLabel x0','h0','`PKwLabel::PlainLabel`')
b('quotedLabel','T L T2','K','p','.QuotedLabel x0 x1 x2','⟨_, _, h0, h1, h2⟩','`PKwLabel::QuotedLabel`')
# builder functions used as they are
for fn in 'nil true_ false_ line file self_ encoding forwardArg forwardedArgs stringInternal'.split(): easy(fn,'T','p',f'`{fn}`')
for fn in 'integer float rational complex lvar ivar gvar cvar backRef const_'.split(): easy(fn,'T','R',f'`{fn}`')
easy('constFetch','N T T','R','`const_fetch`')
easy('constGlobal','T T','R','`const_global`')
easy('arg','T','B','`arg`'); easy('shadowarg','T','B','`shadowarg`'); easy('optarg','T T N','B','`optarg`')
easy('kwnilarg','T T','p','`kwnilarg`')
easy('Builder.alias','T N N','p','`alias`',name='alias',at='alias_at')
easy('pair','N T N','p','`pair`'); easy('kwsplat','T N','p','`kwsplat`')
easy('multiAssign','N T N','p','`multi_assign`')
easy('defClass','T N O P P T','p','`def_class`'); easy('defSclass','T T N P T','p','`def_sclass`'); easy('defModule','T N P T','p','`def_module`')
easy('defMethod','T T P P T','B','`def_method`'); easy('defSingleton','T N T T P P T','B','`def_singleton`')
easy('indexAsgn','N T L T','p','`index_asgn`'); easy('ternary','N T N T N','p','`ternary`')
easy('Builder.case','T P L O P T','p','`case`',name='case',at='case_at'); easy('for_','T N T N T P T','p','`for_`')
easy('preexe','T T P T','p','`preexe`'); easy('postexe','T T P T','p','`postexe`')
easy('matchPattern','N T N','p','`match_pattern`'); easy('matchPatternP','N T N','p','`match_pattern_p`')
easy('ifGuard','T N','p','`if_guard`'); easy('unlessGuard','T N','p','`unless_guard`')
easy('constPattern','N T N T','p','`const_pattern`'); easy('pin','T N','p','`pin`')
easy('matchAlt','N T N','p','`match_alt`'); easy('matchAs','N T N','p','`match_as`'); easy('matchNilPattern','T T','p','`match_nil_pattern`')
easy('wordsCompose','T L T','p','`words_compose`')
b('character','T1','N','p','character x0','character_at h0.1 h0.2','`character`')
easy('splat','T P','p','`splat`'); easy('blockPass','T P','p','`block_pass`')
easy('rangeInclusive','P T P','p','`range_inclusive`'); easy('rangeExclusive','P T P','p','`range_exclusive`')
easy('restarg','T O','B','`restarg`'); easy('kwrestarg','T O','B','`kwrestarg`'); easy('blockarg','T O','B','`blockarg`')
easy('unaryNum','T N','R','`unary_num`'); easy('symbol','T T','M','`symbol`'); easy('symbolInternal','T','M','`symbol_internal`')
easy('nthRef','T','M','`nth_ref`'); easy('matchVar','T','B','`match_var`',ext=True)
easy('array','O L O','R','`array`'); easy('multiLhs','O L O','R','`multi_lhs`'); easy('hashPattern','O L O','R','`hash_pattern`')
easy('findPattern','O L O','R','`find_pattern`'); easy('associate','O L O','M','`associate`')
easy('Builder.args','O L O','M','`args`',res='P',name='args',at='args_at'); easy('arrayPattern','O L O O','R','`array_pattern`')
easy('logicalOp','N T N','B','`logical_op`',name='logical',param='LogicalOp',at='logicalOp_at')
easy('binaryOp','N T N','B','`binary_op`'); easy('unaryOp','T N','B','`unary_op`'); easy('matchOp','N T N','B','`match_op`',ext=True)
b('notOp','T N','N','B','notOp x0 none (some x1) none','notOp_at h0 h1','`not_op`')
b('notParen','T T N T','N','B','notOp x0 (some x1) (some x2) (some x3)','notOp_paren_at h0 h1 h2 h3','`not_op` with parentheses')
b('notEmpty','T T T','N','B','notOp x0 (some x1) none (some x2)','notOp_empty_at h0 h1 h2','`not_op` of `not ()`')
b('ifMod','N T N','N','R','conditionMod (some x0) none x1 x2','ifMod_at h0 h1 h2','`condition_mod` of `if`')
b('unlessMod','N T N','N','R','conditionMod none (some x0) x1 x2','unlessMod_at h0 h1 h2','`condition_mod` of `unless`')
easy('loopMod','N T N','p','`loop_mod`',param='LoopType')
easy('loop_','T N T P T','p','`loop_`',param='LoopType')
b('condition','T N T P I T','N','p','Builder.condition x0 x1 x2 x3 x4.1 x4.2 (some x5)','condition_at h0 h1 h2 h3 h4 h5','`condition` of `if`')
b('unless_','T N T P O P T','N','p','Builder.condition x0 x1 x2 x5 x4 x3 (some x6)','unless_at h0 h1 h2 h3 h4 h5 h6','`condition` of `unless`')
easy('when','T L T P','p','`when`'); easy('inPattern','T N P T P','p','`in_pattern`'); easy('caseMatch','T N L O P T','p','`case_match`')
b('rescueClause','T L E T P','N','R','rescueClause x0 x1 x2 x3 x4','rescueClause_at h0 h1 h2 h3 h4','src/parser/parse.y:5433-5459')
b('rescueModOpt','N T N','P','R','rescueMod x0 x1 x2','rescueMod_at h0 h1 h2','`rescue_body`, `begin_body` of `x rescue y`, src/parser/parse.y:829-849')
b('rescueMod','N T N','N','R','rescueMod! x0 x1 x2','rescueMod!_at h0 h1 h2','the same with `expect`, src/parser/parse.y:592-611')
easy('compstmt','L','R','`compstmt`',res='P')
easy('Builder.begin','T P T','p','`begin`',name='begin',at='begin_at'); easy('beginKeyword','T P T','p','`begin_keyword`')
b('bodystmtElse','P L T P O P','P','B','bodystmtElse x0 x1 x2 x3 x4 x5','bodystmtElse_at h0 h1 h2 h3 h4 h5','`begin_body`, src/parser/parse.y:422-443')
b('bodystmt','P L O P','P','R','beginBody x0 x1 none (x2.map fun t => (t, x3))','bodystmt_at h0 h1 h2 h3','`begin_body`, src/parser/parse.y:444-460')
easy('accessible','N','M','`accessible`'); easy('assignable','N','B','`assignable`'); easy('constOpAssignable','N','R','`const_op_assignable`')
easy('assign','N T N','R','`assign`'); easy('opAssign','N T N','B','`op_assign`')
easy('defEndlessMethod','T T P T P','B','`def_endless_method`',name='defEndless'); easy('defEndlessSingleton','T N T T P T P','B','`def_endless_singleton`')
easy('undefMethod','T L','p','`undef_method`')
b('kwarg','T1','N','B','kwarg x0','kwarg_at h0.1 h0.2','`kwarg`'); b('kwoptarg','T1 N','N','B','kwoptarg x0 x1','kwoptarg_at h0.1 h1 h0.2','`kwoptarg`')
b('procargs','L L','L','R','procargs x0 x1','procargs_at h0 h1','src/parser/parse.y:3917-3937')
b('callDot','N T T L','N','R','callMethod (some x0) (some x1) (some x2) none x3 none','callDot_at h0 h1 h2 h3','`call_method` of `x.m args`')
b('callFn','T L','N','R','callMethod none none (some x0) none x1 none','callFn_at h0 h1','`call_method` of `m args`')
b('callFnParen','T T L T','N','R','callMethod none none (some x0) (some x1) x2 (some x3)','callFnParen_at h0 h1 h2 h3','`call_method` of `m(args)`')
b('callDotParen','N T T T L T','N','R','callMethod (some x0) (some x1) (some x2) (some x3) x4 (some x5)','callDotParen_at h0 h1 h2 h3 h4 h5','`call_method` of `x.m(args)`')
b('callDotOpt','N T T G','N','R','callMethod (some x0) (some x1) (some x2) x3.1 x3.2.1 x3.2.2','callDotOpt_at h0 h1 h2 h3','`call_method` with `opt_paren_args`')
b('callParen','N T T L T','N','R','callMethod (some x0) (some x1) none (some x2) x3 (some x4)','callParen_at h0 h1 h2 h3 h4','`call_method` of `x.(args)`')
easy('block','N T A P T','B','`block`')
b('lambda','T A T P T','N','B','block (callLambda x0) x2 x1 x3 x4','lambda_at h0 h1 h2 h3 h4','`call_lambda` and `block`, src/parser/parse.y:4104-4131')
easy('attrAsgn','N T T','R','`attr_asgn`')
b('attrAsgnMasgn','N T T','N','B','attrAsgnMasgn x0 x1 x2','attrAsgnMasgn_at h0 h1 h2','`attr_asgn` on a left-hand side of a multiple assignment, src/parser/parse.y:1599-1613')
easy('index','N T L T','R','`index`')
b('keyword','T L','N','B','keywordCmd p x0 none x1 none','keywordCmd_at h0 h1','`keyword_cmd`','KeywordCmd')
b('keywordParen','T T L T','N','B','keywordCmd p x0 (some x1) x2 (some x3)','keywordCmd_paren_at h0 h1 h2 h3','`keyword_cmd` with parentheses','KeywordCmd')
b('mlhsInner','T N T','N','R','mlhsInner x0 x1 x2','mlhsInner_at h0 h1 h2','src/parser/parse.y:1416-1434')
b('strings','L','N','R','stringCompose none x0 none','stringCompose_at (Nat.le_refl _) h0 (Nat.le_refl _) rfl','`string_compose` of adjacent literals')
b('string1','T L T','N','R','string1 indent x0 x1 x2','string1_at h0 h1 h2','`string_compose` and `heredoc_dedent`, src/parser/parse.y:5547-5558')
b('xstring','T L T','N','R','heredocDedent (xstringCompose x0 x1 x2) indent','heredocDedent_at (xstringCompose_at h0 h1 h2)','`xstring_compose` and `heredoc_dedent`, src/parser/parse.y:5561-5572')
b('regexp','T L T1','N','M','do { let o ← liftR (regexpOptions x2); regexpCompose ext x0 x1 x2 o }','regexp_at h0 h1 h2.1 h2.2','`regexp_options` and `regexp_compose`, src/parser/parse.y:5575-5586')
easy('word','L','R','`word`'); easy('symbolsCompose','T L T','M','`symbols_compose`'); easy('symbolCompose','T L T','M','`symbol_compose`')
b('pairKeyword','T1 N','N','M','pairKeyword x0 x1','pairKeyword_at h0.1 h1 h0.2','`pair_keyword`')
b('pairLabel','T1','N','M','pairLabel ext x0','pairLabel_at h0.1 h0.2','`pair_label`')
b('pairQuoted','T L T2 N','N','M','pairQuoted x0 x1 x2 x3','pairQuoted_at h0 h1 h2.1 h3 h2.2','`pair_quoted`')
easy('matchRest','T O','B','`match_rest`',ext=True); easy('matchPair','K N','B','`match_pair`'); easy('matchLabel','K','B','`match_label`',ext=True)
b('constPatternEmpty','N T T','N','R','constPatternEmpty x0 x1 x2','constPatternEmpty_at h0 h1 h2','src/parser/parse.y:4777-4793, 4830-4846')
