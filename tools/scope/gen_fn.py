import re
src=open('/verif/lean/Verif/Model/Grammar/Values.lean').read()
body=src[src.index("def applyFn"):src.index("/-- How a value is put together")]
cases=re.findall(r"^  \| \.(\w+!?)( p)? => (with\w+) \((?:fun [^=]*=> )?(outp|outR|outM|outB) \.(\w+) \((.*)\)\)\s*$",body,re.M)
lines=[l for l in body.split("\n") if l.startswith("  | .")]
assert len(cases)==len(lines),(len(cases),len(lines))
special='''someT noneT endlessName kwargName lvar accessible assignable pairLabel block lambda defClass defSclass defModule defMethod
defSingleton defEndless defEndlessSingleton arg optarg kwarg kwoptarg shadowarg restarg kwrestarg blockarg matchVar matchRest
matchLabel matchOp argsType assign keyword keywordParen bodystmt bodystmtElse'''.split()
# pure functions with a lemma
lem={'elsifTail':'condition_adds','condition':'condition_adds','unless_':'condition_adds','loop_':'loop_adds','loopMod':'loopMod_adds',
 'caseMatch':'caseMatch_adds','begin':'begin_adds','beginKeyword':'beginKeyword_adds'}
# computations with a lemma
glem={k:k+'_adds' for k in 'symbolsCompose symbolCompose pairKeyword pairQuoted matchPair word opAssign procargs attrAsgn mlhsInner args arrayPattern constPatternEmpty rescueClause rescueMod'.split()}
glem.update({'rescueModOpt':'rescueMod_adds','rescueMod':'rescueMod!_adds','strings':'stringCompose_adds','ifMod':'conditionMod_adds','unlessMod':'conditionMod_adds','notOp':'notOp_adds','notParen':'notOp_adds','notEmpty':'notOp_adds'})
for k in 'callDot callFn callFnParen callDotParen callDotOpt callParen'.split(): glem[k]='callMethod_adds'
lift={'checked':'','attrAsgnMasgn':''}
out=[]
o=out.append
o('''import Verif.Lemmas.ScopeParts
/-!
The functions that only put nodes together (`plainFn`), one by one. Generated by `tools/scope/gen_fn.py`.
-/
namespace Verif
open Builder Grammar

/-- The functions whose result has what the arguments have. -/
def plainFn : BFn → Bool''')
o("  | "+" | ".join('.'+s+(' _' if s in('keyword','keywordParen') else '') for s in special).replace(" | .defSingleton","\n  | .defSingleton").replace(" | .matchLabel","\n  | .matchLabel")+" => false")
o("  | _ => true\n")
o('''variable {Q : Node → Prop}

theorem fn_plain (h : Additive Q) {ext : BldExt} {indent : Int} {f : BFn} (hf : plainFn f = true) (xs : List Atom) :
    BldR.Yields (applyFn ext indent f xs) fun a => (Some_ Q a.trees ↔ Some_ Q (xs.flatMap Atom.trees)) := by
  cases f''')
simp="simp only [Atom.trees, List.flatMap_cons, List.flatMap_nil, List.append_nil, List.nil_append, some_cons, some_nil, some_append, Option.toList_some, Option.toList_none, or_false, false_or]"
for n,p,w,oo,k,b in cases:
    o(f"  case {'«'+n+'»' if n in('alias','begin') else n}{' p' if p else ''} =>")
    if n in special:
        o("    cases hf"); continue
    if n in('keyword_x',): continue
    o(f"    dsimp only [applyFn, {w}]")
    if w in('withK',):pass
    fn=b.split()[0].lstrip('(')
    o("    split")
    if oo=='outp':
        m=re.match(r'(?:Builder\.)?(\w+!?)(?: |$)',b)
        if n in lem:
            t=f"adds h; rw [{lem[n]} h]; (try adds h); (try tauto)"
            if n=='elsifTail': t=f"adds h; rw [{lem[n]} h]; (try adds h); (try tauto)"
            o(f"    · refine outp_yields ?_; {t}")
        elif m and not b.startswith(('(','some','none','[','.','x')):
            o(f"    · refine outp_yields ?_; unfold {'Builder.' if m.group(1) in('alias','case') else ''}{'«alias»' if m.group(1)=='alias' else m.group(1)}; adds h; try tauto")
        else:
            o(f"    · refine outp_yields ?_; adds h; try tauto")
    elif n in glem:
        o(f"    · exact {oo}_gives (({glem[n]} h).imp fun m hm => by adds h; (first | rw [hm] | rw [← hm]); (try adds h); (try tauto))")
    elif n=='checked':
        o("    · refine outB_yields ?_; rw [seqRight_eq_bind]; skips; ends h")
    elif n=='singletonExpr':
        o("    · refine outB_yields ?_; unfold singletonExpr; skips; ends h")
    elif n=='attrAsgnMasgn':
        o("    · refine outB_yields ?_; unfold attrAsgnMasgn; split; · skip1\n      · exact (BldR.safe_lift (BldM.safe_liftR (attrAsgn_adds h))).imp fun m hm => by adds h; exact hm")
    elif n=='index':
        o("    · refine outR_yields ?_; unfold index; refine Res.safe_bind (rewrite_adds h _) fun m hm => Res.safe_pure ?_; adds h; rw [hm]")
    elif n=='string1':
        o("    · refine outR_yields ?_; unfold string1; refine Res.safe_bind (stringCompose_adds h) fun m hm => (heredocDedent_adds h).imp fun m' hm' => ?_; adds h; rw [hm', hm]")
    elif n=='xstring':
        o("    · refine outR_yields ((heredocDedent_adds h).imp fun m hm => ?_); adds h; rw [hm]; unfold xstringCompose; split <;> adds h")
    elif n=='regexp':
        o("    · refine outM_yields (BldM.safe_bind (BldM.safe_liftR (regOpt_adds h)) fun m hm => (regexpCompose_adds h).imp fun m' hm' => ?_); adds h; rw [hm']; tauto")
    elif n=='logical':
        o("    · refine outB_yields ?_; unfold logicalOp; skips <;> ends h")
    else:
        fn=b.split()[0]
        o(f"    · refine {oo}_gives ?_; unfold {fn}; skips <;> ends h")
    o("    · exact illTyped_yields")
o("\nend Verif")
open('/verif/lean/Verif/Lemmas/ScopeFn.lean','w').write("\n".join(out)+"\n")
