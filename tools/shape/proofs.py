PR={}
def p(names,s):
    for n in names.split(): PR[n]=s
p('someT noneT','rfl')
p('noneN','exact oko_none'); p('nilL noParens','exact okl_nil'); p('noExc','exact oko_none')
p('endlessName','''unfold endlessName
dsimp only
steps <;> exact BldR.safe_pure trivial''')
p('kwargName','''unfold kwargName
steps
exact BldR.safe_pure trivial''')
p('argsType','''unfold argsType
refine BldR.safe_bind (P := Any) (BldR.safe_lift BldM.safe_get) fun _ _ => ?_
split
· exact BldR.safe_pure trivial
· exact BldR.safe_pure h0''')
p('someParens','exact h1'); p('someExc','exact oko_some.2 h1'); p('elseTail','exact h1')
p('elsifTail','''refine oko_some.2 ?_
unfold Builder.condition
okc shaped_If''')
p('plainLabel','trivial'); p('quotedLabel','exact h1')
p('unaryNum','''have hk := h1.1
unfold numericK at hk
simp only [has_ks, has_nil, or_false] at hk
unfold unaryNum
rcases hk with hk | hk | hk | hk
· obtain ⟨_, _, _, rfl⟩ := kind_Int hk; step; exact Res.safe_pure ⟨by has, shaped_Int⟩
· obtain ⟨_, _, _, rfl⟩ := kind_Float hk; step; exact Res.safe_pure ⟨by has, shaped_Float⟩
· obtain ⟨_, _, _, rfl⟩ := kind_Rational hk; step; exact Res.safe_pure ⟨by has, shaped_Rational⟩
· obtain ⟨_, _, _, rfl⟩ := kind_Complex hk; step; exact Res.safe_pure ⟨by has, shaped_Complex⟩''')
p('pairLabel','''unfold pairLabel
steps
· exact BldM.safe_bind ((sh_accessible (m := ks [.Lvar]) ⟨by has, shaped_Lvar⟩).imp (P' := Ok pairValueK) fun _ h => h.mono (by decide +kernel)) fun v hv => sh_pairKeyword hv
· exact BldM.safe_bind ((sh_accessible (m := ks [.Const]) ⟨by has, shaped_Const.2 oko_none⟩).imp (P' := Ok pairValueK) fun _ h => h.mono (by decide +kernel)) fun v hv => sh_pairKeyword hv''')
p('constGlobal','''unfold constGlobal
dsimp only
step
exact Res.safe_pure ⟨by has, shaped_Const.2 (oko_some.2 ⟨by has, shaped_Cbase⟩)⟩''')
for l in('And','Or'): p('logical:'+l,f'''unfold logicalOp
refine BldR.safe_bind valueExpr_safe fun _ hv => ?_
exact BldR.safe_pure ⟨by has, shaped_{l}.2 ⟨h0.value hv (by decide +kernel), h2.mono (by decide +kernel)⟩⟩''')
p('binaryOp','''unfold binaryOp
refine BldR.safe_bind valueExpr_safe fun _ hv => ?_
refine BldR.safe_bind valueExpr_safe fun _ hw => ?_
step
exact BldR.safe_pure ⟨by has, shaped_Send.2 ⟨oko_some.2 (h0.value hv (by decide +kernel)), okl_one (h2.value hw (by decide +kernel))⟩⟩''')
p('unaryOp','''unfold unaryOp
refine BldR.safe_bind valueExpr_safe fun _ hv => ?_
step
exact BldR.safe_pure ⟨by has, shaped_Send.2 ⟨oko_some.2 (h1.value hv (by decide +kernel)), okl_nil⟩⟩''')
p('matchOp','''unfold matchOp
refine BldR.safe_bind valueExpr_safe fun _ hv => ?_
refine BldR.safe_bind valueExpr_safe fun _ hw => ?_
dsimp only
refine BldR.safe_bind (BldR.safe_lift (staticRegexpCaptures_safe (n := x0))) fun c hc => ?_
split
· step
  exact BldR.safe_pure ⟨by has, shaped_MatchWithLvasgn.2 ⟨⟨hc nofun, h0.2⟩, h2.value hw (by decide +kernel)⟩⟩
· exact BldR.safe_pure ⟨by has, shaped_Send.2 ⟨oko_some.2 (h0.value hv (by decide +kernel)), okl_one (h2.value hw (by decide +kernel))⟩⟩''')
p('notOp','''unfold Builder.notOp
refine BldR.safe_bind valueExpr_safe fun _ hv => ?_
exact BldR.safe_pure ⟨by has, shaped_Send.2 ⟨oko_some.2 ((checkCondition_ok (h1.value hv (by decide +kernel))).mono (by decide +kernel)), okl_nil⟩⟩''')
p('notParen','''unfold Builder.notOp
refine BldR.safe_bind valueExpr_safe fun _ hv => ?_
exact BldR.safe_pure ⟨by has, shaped_Send.2 ⟨oko_some.2 ((checkCondition_ok (h2.value hv (by decide +kernel))).mono (by decide +kernel)), okl_nil⟩⟩''')
p('notEmpty','''unfold Builder.notOp
refine BldR.safe_bind (BldR.safe_lift (BldM.safe_liftR (collectionMap_safe (.inl rfl)))) fun m hm => ?_
exact BldR.safe_pure ⟨by has, shaped_Send.2 ⟨oko_some.2 ⟨by has, shaped_Begin.2 ⟨okl_nil, by rw [hm.1]; rfl⟩⟩, okl_nil⟩⟩''')
p('ifMod unlessMod','''unfold conditionMod
exact Res.safe_ok (by okc shaped_IfMod)''')
for l in('While','Until'):
    p('loopMod:'+l,f'''unfold Builder.loopMod
dsimp only
split
· exact ⟨by has, shaped_{l}Post.2 ⟨checkCondition_ok h2, by has, h0.2⟩⟩
· exact ⟨by has, shaped_{l}.2 ⟨checkCondition_ok h2, oko_some.2 h0⟩⟩
· exact ⟨by has, shaped_{l}Post.2 ⟨checkCondition_ok h2, by has, h0.2⟩⟩
· exact ⟨by has, shaped_{l}.2 ⟨checkCondition_ok h2, oko_some.2 h0⟩⟩''' if 0 else f'''cases x0
case KwBegin => exact ⟨by has, shaped_{l}Post.2 ⟨checkCondition_ok h2, by has, h0.2⟩⟩
all_goals exact ⟨by has, shaped_{l}.2 ⟨checkCondition_ok h2, oko_some.2 h0⟩⟩''')
    p('loop_:'+l,f'''unfold Builder.loop_
dsimp only
okc shaped_{l}''')
p('caseMatch','''unfold Builder.caseMatch
refine ⟨by has, shaped_CaseMatch.2 ⟨h1, h2, ?_, ne_isEmpty n2⟩⟩
split
· exact oko_some.2 ⟨by has, shaped_EmptyElse⟩
· exact h4.mono (by decide +kernel)''')
p('rescueClause','''unfold rescueClause
split
· unfold rescueBody
  exact Res.safe_ok (by okc shaped_RescueBody)
· next hne =>
  refine Res.safe_bind (sh_array (.inr hne) h1) fun a ha => ?_
  unfold rescueBody
  exact Res.safe_pure ⟨by has, shaped_RescueBody.2 ⟨oko_some.2 ha, h2, h4⟩⟩''')
p('rescueModOpt','exact rescueMod_safe h0 h2')
p('rescueMod','''unfold rescueMod!
refine Res.safe_bind (rescueMod_safe h0 h2) fun r hr => ?_
split
· exact Res.safe_pure (oko_some.1 hr.1)
· step''')
p('beginKeyword','''unfold Builder.beginKeyword
dsimp only
split
· have := (shaped_Begin.1 (oko_some.1 h1).2).1
  exact ⟨by has, shaped_KwBegin.2 (this.mono (by decide +kernel))⟩
· exact ⟨by has, shaped_KwBegin.2 (okl_one ((oko_some.1 h1).mono (by decide +kernel)))⟩
· exact ⟨by has, shaped_KwBegin.2 okl_nil⟩''')
p('bodystmtElse','''unfold Grammar.bodystmtElse
split
· step
· next hne =>
  refine BldR.safe_lift (BldM.safe_liftR (beginBody_safe h0 h1 (fun t o e => ?_) (fun t o e => ?_)))
  · cases e; exact ⟨h3, by simpa using hne⟩
  · cases x4 <;> cases e; exact h5''')
p('bodystmt','''refine beginBody_safe h0 h1 nofun fun t o e => ?_
cases x2 <;> cases e; exact h3''')
p('singletonExpr','''unfold Grammar.singletonExpr
split
all_goals first
  | exact BldR.safe_err
  | skip
rename_i a1 a2 a3 a4 a5 a6 a7 a8 a9 a10 a11 a12 a13
refine BldR.safe_bind valueExpr_safe fun _ hv => BldR.safe_pure ?_
refine ⟨?_, h0.2⟩
have h1 := (h0.value hv (m' := exprK) (by decide +kernel)).1
unfold defineeK
refine has_without.2 ⟨h1, ?_⟩
unfold stringsK numericK symK
simp only [has_or, has_ks, has_nil, or_false]
rintro ((((hk | hk | hk) | (hk | hk | hk | hk)) | (hk | hk)) | (hk | hk | hk | hk))
· obtain ⟨_, _, _, _, rfl⟩ := kind_Str hk; exact a5 _ _ _ _ rfl
· obtain ⟨_, _, _, _, rfl⟩ := kind_Dstr hk; exact a6 _ _ _ _ rfl
· obtain ⟨_, _, _, _, rfl⟩ := kind_Heredoc hk; exact a9 _ _ _ _ rfl
· obtain ⟨_, _, _, rfl⟩ := kind_Int hk; exact a1 _ _ _ rfl
· obtain ⟨_, _, _, rfl⟩ := kind_Float hk; exact a2 _ _ _ rfl
· obtain ⟨_, _, _, rfl⟩ := kind_Rational hk; exact a3 _ _ _ rfl
· obtain ⟨_, _, _, rfl⟩ := kind_Complex hk; exact a4 _ _ _ rfl
· obtain ⟨_, _, _, _, rfl⟩ := kind_Sym hk; exact a7 _ _ _ _ rfl
· obtain ⟨_, _, _, _, rfl⟩ := kind_Dsym hk; exact a8 _ _ _ _ rfl
· obtain ⟨_, _, _, _, rfl⟩ := kind_XHeredoc hk; exact a10 _ _ _ _ rfl
· obtain ⟨_, _, _, _, _, rfl⟩ := kind_Regexp hk; exact a11 _ _ _ _ _ rfl
· obtain ⟨_, _, _, _, rfl⟩ := kind_Array hk; exact a12 _ _ _ _ rfl
· obtain ⟨_, _, _, _, rfl⟩ := kind_Hash hk; exact a13 _ _ _ _ rfl''')
p('constOpAssignable','''have hk := h0.1
simp only [has_ks, has_nil, or_false] at hk
obtain ⟨_, _, _, _, _, rfl⟩ := kind_Const hk
exact Res.safe_ok ⟨by has, shaped_Casgn.2 ⟨shaped_Const.1 h0.2, oko_none⟩⟩''')
p('assign','''have hk := h0.1
unfold targetK at hk
simp only [has_ks, has_nil, or_false] at hk
rcases hk with hk | hk | hk | hk | hk | hk | hk | hk
· obtain ⟨_, _, _, _, _, rfl, -⟩ := kind_LvasgnT hk
  exact Res.safe_ok ⟨by has, shaped_Lvasgn.2 (oko_some.2 h2)⟩
· obtain ⟨_, _, _, _, _, rfl, -⟩ := kind_IvasgnT hk
  exact Res.safe_ok ⟨by has, shaped_Ivasgn.2 (oko_some.2 h2)⟩
· obtain ⟨_, _, _, _, _, rfl, -⟩ := kind_GvasgnT hk
  exact Res.safe_ok ⟨by has, shaped_Gvasgn.2 (oko_some.2 h2)⟩
· obtain ⟨_, _, _, _, _, rfl, -⟩ := kind_CvasgnT hk
  exact Res.safe_ok ⟨by has, shaped_Cvasgn.2 (oko_some.2 h2)⟩
· obtain ⟨_, _, _, _, _, _, _, rfl, -⟩ := kind_CasgnT hk
  exact Res.safe_ok ⟨by has, shaped_Casgn.2 ⟨(shaped_Casgn.1 h0.2).1, oko_some.2 h2⟩⟩
· obtain ⟨_, _, _, _, _, _, _, rfl, -⟩ := kind_IndexAsgnT hk
  exact Res.safe_ok ⟨by has, shaped_IndexAsgn.2 ⟨(shaped_IndexAsgn.1 h0.2).1, (shaped_IndexAsgn.1 h0.2).2.1, oko_some.2 h2⟩⟩
· obtain ⟨_, _, l, _, _, _, _, _, _, rfl, he⟩ := kind_Send0 hk
  unfold Builder.assign
  dsimp only
  rw [if_pos he]
  exact Res.safe_ok ⟨by has, shaped_Send.2 ⟨(shaped_Send.1 h0.2).1, okl_one (h2.mono (by decide +kernel))⟩⟩
· obtain ⟨_, _, l, _, _, _, _, _, _, rfl, he⟩ := kind_CSend0 hk
  unfold Builder.assign
  dsimp only
  rw [if_pos he]
  exact Res.safe_ok ⟨by has, shaped_CSend.2 ⟨(shaped_CSend.1 h0.2).1, okl_one (h2.mono (by decide +kernel))⟩⟩''')
p('opAssign','''unfold Builder.opAssign
step
dsimp only
refine BldR.safe_bind (opAssignLhs_safe h0) fun r hr => ?_
repeat' split
· exact BldR.safe_pure ⟨by has, shaped_AndAsgn.2 ⟨hr, h2⟩⟩
· exact BldR.safe_pure ⟨by has, shaped_OrAsgn.2 ⟨hr, h2⟩⟩
· exact BldR.safe_pure ⟨by has, shaped_OpAsgn.2 ⟨hr, h2⟩⟩''')
p('defEndless','''obtain ⟨n, rfl⟩ := Option.isSome_iff_exists.1 n4
unfold defEndlessMethod
simp only [maybeExpr, Option.map_some]
steps
fin shaped_Def''')
p('defEndlessSingleton','''obtain ⟨n, rfl⟩ := Option.isSome_iff_exists.1 n6
unfold Builder.defEndlessSingleton
simp only [maybeExpr, Option.map_some]
steps
fin shaped_Defs''')
p('restarg kwrestarg','')
for n,c in(('restarg','Restarg'),('kwrestarg','Kwrestarg')): p(n,f'''unfold Builder.{n}
refine BldR.safe_bind (P := Any) checkedName_safe fun _ _ => ?_
exact BldR.safe_pure ⟨by has, shaped_{c}⟩''')
p('blockarg','''unfold Builder.blockarg
dsimp only
step
steps
all_goals first
  | exact BldR.safe_pure ⟨by has, shaped_Blockarg⟩
  | exact BldR.safe_bind (P := Any) (BldR.safe_pure trivial) fun _ _ => BldR.safe_pure ⟨by has, shaped_Blockarg⟩''')
p('nthRef','''unfold Builder.nthRef
steps
all_goals exact BldM.safe_pure ⟨by has, shaped_NthRef⟩''')
p('lambda','exact sh_block_callee ⟨by has, shaped_Lambda⟩ h1 h3')
p('attrAsgn','exact attrAsgn_safe h0')
p('attrAsgnMasgn','''unfold Grammar.attrAsgnMasgn
split
· step
· next ht => exact BldR.safe_lift (BldM.safe_liftR (attrAsgn_send h0 ht))''')
p('index','''unfold Builder.index
refine Res.safe_bind (rewriteHashArgsToKwargs_safe h2) fun r hr => ?_
exact Res.safe_pure ⟨by has, shaped_Index.2 ⟨h0, hr.1⟩⟩''')
p('mlhsInner','''have hk := h1.1
simp only [has_ks, has_nil, or_false] at hk
obtain ⟨items, _, _, _, rfl, hd⟩ := kind_Mlhs hk
have hs := shaped_Mlhs.1 h1.2
rw [hd] at hs
unfold Grammar.mlhsInner
exact sh_multiLhs_items (by rintro rfl; cases hs.2) hs.1''')
p('strings','''unfold Builder.stringCompose
split
· exact absurd rfl n0
· exact Res.safe_ok ((okl_cons.1 h0).1)
· exact Res.safe_ok ((okl_cons.1 h0).1)
· exact Res.safe_ok ((okl_cons.1 h0).1)
· unfold stringComposeMany
  refine Res.safe_bind (collectionMap_safe (.inr n0)) fun m hm => ?_
  exact Res.safe_pure ⟨by has, shaped_Dstr.2 (h0.mono (by decide +kernel))⟩''')
p('string1','''unfold Grammar.string1
refine Res.safe_bind (stringCompose_safe h1) fun r hr => ?_
refine heredocDedent_safe hr.1 ?_
rintro (hi | hh)
· exact .inl hi
· exact .inr (hr.2 hh)''')
p('xstring','''refine heredocDedent_safe ?_ ?_
· unfold xstringCompose
  split
  · exact ⟨by has, shaped_XHeredoc.2 h1⟩
  · exact ⟨by has, shaped_Xstr.2 h1⟩
· rintro (hi | hh)
  · exact .inl hi
  · right
    unfold xstringCompose
    rw [if_pos hh]
    has''')
p('regexp','''refine BldM.safe_bind (BldM.safe_liftR regexpOptions_safe) fun o ho => ?_
unfold regexpCompose
dsimp only
split
· refine BldM.safe_bind validateStaticRegexp_safe fun _ _ => ?_
  exact BldM.safe_pure ⟨by has, shaped_Regexp.2 ⟨h1, ho⟩⟩
· refine BldM.safe_bind validateStaticRegexp_safe fun _ _ => ?_
  exact BldM.safe_pure ⟨by has, shaped_Regexp.2 ⟨h1, ho⟩⟩
· next hn hs =>
  exfalso
  cases o with
  | none => exact hs rfl
  | some o =>
    have hk := (oko_some.1 ho).1
    simp only [has_ks, has_nil, or_false] at hk
    obtain ⟨_, _, rfl⟩ := kind_RegOpt hk
    exact hn _ _ rfl''')
p('word','''unfold Builder.word
split
· exact Res.safe_ok ((okl_cons.1 h0).1.kind (by has))
· exact Res.safe_ok ((okl_cons.1 h0).1.kind (by has))
· refine Res.safe_bind (collectionMap_safe (.inr n0)) fun m hm => ?_
  exact Res.safe_pure ⟨by has, shaped_Dstr.2 (h0.mono (by decide +kernel))⟩''')
p('symbolsCompose','''unfold Builder.symbolsCompose
refine BldM.safe_bind (symbolParts_safe h1) fun r hr => ?_
exact BldM.safe_pure ⟨by has, shaped_Array.2 ⟨hr.mono (by decide +kernel), rfl⟩⟩''')
p('symbolCompose','exact symbolCompose_safe h1')
p('symbol symbolInternal','')
for n in('symbol','symbolInternal'): p(n,f'''unfold Builder.{n}
exact BldM.safe_bind validateSymValue_safe fun _ _ => BldM.safe_pure ⟨by has, shaped_Sym⟩''')
p('pairKeyword','''unfold Builder.pairKeyword
dsimp only
step
step
refine BldM.safe_bind validateSymValue_safe fun _ _ => ?_
exact BldM.safe_pure ⟨by has, shaped_Pair.2 ⟨⟨by has, shaped_Sym⟩, h1⟩⟩''')
p('pairQuoted','''unfold Builder.pairQuoted
dsimp only
step
step
step
refine BldM.safe_bind (symbolCompose_safe h1) fun k hk => ?_
exact BldM.safe_pure ⟨by has, shaped_Pair.2 ⟨hk.mono (by decide +kernel), h3⟩⟩''')
p('matchVar','exact matchVar_safe')
p('matchRest','''unfold Builder.matchRest
split
· refine BldR.safe_bind (P := OkO (ks [.MatchVar])) ?_ fun r hr => ?_
  · refine (show BldR.Safe g (matchVar ext _ >>= fun a => pure (some a)) _ from ?_)
    exact BldR.safe_bind matchVar_safe fun a ha => BldR.safe_pure (oko_some.2 ha)
  · exact BldR.safe_pure ⟨by has, shaped_MatchRest.2 hr⟩
· refine BldR.safe_bind (P := OkO (ks [.MatchVar])) (BldR.safe_pure oko_none) fun r hr => ?_
  exact BldR.safe_pure ⟨by has, shaped_MatchRest.2 hr⟩''')
p('matchPair','''unfold Builder.matchPair
split
· refine BldR.safe_bind checkDuplicatePatternKey_safe fun _ _ => ?_
  exact BldR.safe_lift (sh_pairKeyword h1)
· dsimp only
  split
  · refine BldR.safe_bind checkDuplicatePatternKey_safe fun _ _ => ?_
    exact BldR.safe_lift (sh_pairQuoted h0 h1)
  · steps''')
p('matchLabel','''unfold Builder.matchLabel
split
· unfold matchHashVar
  step
  step
  refine BldR.safe_bind declarePatternVar_safe fun _ _ => ?_
  exact BldR.safe_pure ⟨by has, shaped_MatchVar⟩
· exact matchHashVarFromStr_safe _''')
p('constPatternEmpty','''unfold Grammar.constPatternEmpty
refine Res.safe_bind (sh_arrayPattern (.inl rfl) okl_nil) fun r hr => ?_
exact Res.safe_pure ⟨by has, shaped_ConstPattern.2 ⟨h0, hr.1.mono (by decide +kernel)⟩⟩''')
p('callDotOpt','exact (callMethod_safe (oko_some.2 h0) (.inl rfl) h3).imp fun n hn => callK_sends hn')
for P in('','Paren'):
    l='h1' if not P else 'h2'
    L='x1' if not P else 'x2'
    for K in('Yield','Super'):
        fin=f'''refine BldR.safe_bind (BldR.safe_lift (BldM.safe_liftR (rewriteHashArgsToKwargs_safe {l}))) fun r hr => ?_
exact BldR.safe_pure ⟨by has, shaped_{K}.2 hr.1⟩'''
        if K=='Yield': p(f'keyword{P}:{K}','''unfold keywordCmd
dsimp only
split
· steps
· '''+fin.replace('\n','\n  '))
        else: p(f'keyword{P}:{K}','''unfold keywordCmd
dsimp only
'''+fin)
    for K in('Zsuper','Redo','Retry'):
        C={'Zsuper':'ZSuper'}.get(K,K)
        p(f'keyword{P}:{K}',f'''unfold keywordCmd
dsimp only
refine BldR.safe_bind (P := Any) (BldR.safe_lift (BldM.safe_liftR (Res.safe_ok trivial))) fun r hr => ?_
exact BldR.safe_pure ⟨by has, shaped_{C}⟩''')
    p(f'keyword{P}:Defined',f'''unfold keywordCmd
dsimp only
refine BldR.safe_bind (P := OkL exprOrVoidK) (BldR.safe_lift (BldM.safe_liftR (Res.safe_ok {l}))) fun r hr => ?_
refine BldR.safe_bind (BldR.safe_lift (BldM.safe_liftR orExpect_safe)) fun v hv => ?_
exact BldR.safe_pure ⟨by has, shaped_Defined.2 (hr v (List.mem_of_head? hv))⟩''')
