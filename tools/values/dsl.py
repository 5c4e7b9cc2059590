# action (first line in parse.y) -> value expressions, in source order of their arguments
E={}
def d(lines,*es):
    for l in ([lines] if isinstance(lines,int) else lines): E[l]=list(es)
d(354,'=2')
d(365,'compstmt($1)')
d(374,'nilL()')
d(378,'single($1)')
d(382,'append($1,single($3))')
d(388,'single($2)')
d(394,'=1')
d(398,'preexe($1,$2.0,$2.1,$2.2)')
d(407,'$1','$2','$3')
d(422,'bodystmtElse($1,$2,$3,$4,$5.0,$5.1)')
d(444,'bodystmt($1,$2,$3.0,$3.1)')
d(478,'append($1,single($3))')
d(498)
d(509,'alias($1,$2,$4)')
d(515,'alias($1,gvar($2),gvar($3))')
d(525,'alias($1,gvar($2),backRef($3))')
d(539,'undefMethod($1,$2)')
d(548,'ifMod($1,$2,$3)')
d(559,'unlessMod($1,$2,$3)')
d(570,'loopMod:While($1,$2,$3)')
d(581,'loopMod:Until($1,$2,$3)')
d(592,'rescueMod($1,$2,$3)')
d(612,'postexe($1,$2,$3,$4)')
d(631,'multiAssign($1,$2,checked($3))')
d(644,'assign($1,$2,checked(array(noneT(),$3,noneT())))')
d(661,'multiAssign($1,$2,rescueMod(checked($3),$4,$5))')
d(690,'multiAssign($1,$2,$3)')
d(706,'assign($1,$2,$3)')
d(716,'opAssign($1,$2,$3)')
d(726,'opAssign(index($1,$2,$3,$4),$5,$6)')
d(741,'opAssign(callDot($1,$2,$3,nilL()),$4,$5)')
d(775,'opAssign(constOpAssignable(constFetch($1,$2,$3)),$4,$5)')
d(809,'defEndless($1.0,endlessName($1.1),$2,$3,someN($4))')
d(829,'defEndless($1.0,endlessName($1.1),$2,$3,rescueModOpt($4,$5,$6))')
d(865,'defEndlessSingleton($1.0,$1.1,$1.2,endlessName($1.3),$2,$3,someN($4))')
d(887,'defEndlessSingleton($1.0,$1.1,$1.2,endlessName($1.3),$2,$3,rescueModOpt($4,$5,$6))')
d(937,'checked($1)')
d(943,'rescueMod(checked($1),$2,$3)')
d(976,'logical:And($1,$2,$3)')
d(987,'logical:Or($1,$2,$3)')
d(998,'notOp($1,$3)')
d(1009,'notOp($1,$2)')
d(1036,'matchPattern($1,$2,$4)')
d(1066,'matchPatternP($1,$2,$4)')
d(1086,'$1')
d(1104,'$1','$2')
d(1121,'$1','$2','$3','$5')
d(1136,'checked($1)')
d(1148,'$2','$3')
d(1176,'callDot($1,$2,$3,$4)')
d(1196,'$1','$3.0','$3.1','$4')
d(1217,'callFn($1,$2)')
d(1230,'block(callFn($1,$2),$3.0,$3.1,$3.2,$3.3)')
d(1265,'block(callDot($1,$2,$3,$4),$5.0,$5.1,$5.2,$5.3)')
for l,k in ((1322,'Super'),(1334,'Yield'),(1346,'Return'),(1358,'Break'),(1370,'Next')): d(l,f'keyword:{k}($1,$2)')
d(1384,'multiLhs(noneT(),$1,noneT())')
d(1394,'begin($1,someN($2),$3)')
d(1416,'mlhsInner($1,$2,$3)')
d(1442,'append($1,single($2))')
d(1448,'append($1,single(splat($2,someN($3))))')
d(1455,'append(append($1,single(splat($2,someN($3)))),$5)')
d(1467,'append($1,single(splat($2,noneN())))')
d(1474,'append(append($1,single(splat($2,noneN()))),$4)')
d(1486,'single(splat($1,someN($2)))')
d(1499,'append(single(splat($1,someN($2))),$4)')
d(1510,'single(splat($1,noneN()))')
d(1523,'append(single(splat($1,noneN())),$3)')
d(1576,'assignable($1)')
d(1588,'indexAsgn($1,$2,$3,$4)')
d(1599,'attrAsgnMasgn($1,$2,$3)')
d(1614,'attrAsgn($1,$2,$3)')
d(1639,'assignable(constFetch($1,$2,$3))')
d(1651,'assignable(constGlobal($1,$2))')
d(1662,'assignable($1)')
d(1684,'indexAsgn($1,$2,$3,$4)')
d(1725,'assignable(constFetch($1,$2,$3))')
d(1737,'assignable(constGlobal($1,$2))')
d(1768,'constGlobal($1,$2)')
d(1774,'const_($1)')
d(1780,'constFetch($1,$2,$3)')
d(1804,'=1')
d(1815,'symbolInternal($1)')
d(1836,'append($1,single($4))')
d(2022,'opAssign(constOpAssignable(constGlobal($1,$2)),$3,$4)')
d(2048,'rangeInclusive(someN(checked($1)),$2,someN(checked($3)))')
d(2064,'rangeExclusive(someN(checked($1)),$2,someN(checked($3)))')
d(2080,'rangeInclusive(someN(checked($1)),$2,noneN())')
d(2093,'rangeExclusive(someN(checked($1)),$2,noneN())')
d(2106,'rangeInclusive(noneN(),$1,someN(checked($2)))')
d(2119,'rangeExclusive(noneN(),$1,someN(checked($2)))')
d(2132,'binaryOp($1,$2,$3)')
d(2168,'unaryOp($1,binaryOp($2,$3,$4))')
d(2181,'unaryOp($1,$2)')
d(2245,'matchOp($1,$2,$3)')
d(2251,'binaryOp($1,$2,$3)')
d(2320,'keyword:Defined($1,single($4))')
d(2333,'ternary(checked($1),$2,$3,$5,$6)')
d(2348,'defEndless($1.0,endlessName($1.1),$2,$3,someN($4))')
d(2368,'defEndless($1.0,endlessName($1.1),$2,$3,rescueModOpt($4,$5,$6))')
d(2404,'defEndlessSingleton($1.0,$1.1,$1.2,endlessName($1.3),$2,$3,someN($4))')
d(2426,'defEndlessSingleton($1.0,$1.1,$1.2,endlessName($1.3),$2,$3,rescueModOpt($4,$5,$6))')
d(2498,'binaryOp($1,$2,$3)')
d(2515,'checked($1)')
d(2531,'append($1,single(associate(noneT(),$3,noneT())))')
d(2543,'single(associate(noneT(),$1,noneT()))')
d(2565,'rescueMod(checked($1),$2,$3)')
d(2590,'$1','$2','$3')
d(2600,'$1','append($2,single(forwardedArgs($4)))','$5')
d(2621,'$1','single(forwardedArgs($2))','$3')
d(2637,'noParens()')
d(2647,'someParens($1.0,$1.1,$1.2)')
d(2672,'append($1,single(associate(noneT(),$3,noneT())))')
d(2695,'single(checked($1))')
d(2701,'append($1,$2)')
d(2708,'append(single(associate(noneT(),$1,noneT())),$2)')
d(2719,'append(append($1,single(associate(noneT(),$3,noneT()))),$4)')
d(2753,'=2')
d(2765,'blockPass($1,someN($2))')
d(2774,'blockPass($1,noneN())')
d(2822,'append($1,single(splat($3,someN($4))))')
d(2831,'array(noneT(),$1,noneT())')
d(2849,'append($1,single(splat($3,someN($4))))')
d(2912,'callFn($1,nilL())')
d(2931,'beginKeyword($1,$3,$4)')
d(2939,'begin($1,noneN(),$3)')
d(2949,'begin($1,someN($2),$4)')
d(2959,'begin($1,$2,$3)')
d(2985,'array(someT($1),$2,someT($3))')
d(2995,'associate(someT($1),$2,someT($3))')
d(3005,'keyword:Return($1,nilL())')
d(3017,'keywordParen:Yield($1,$2,$3,$4)')
d(3029,'keywordParen:Yield($1,$2,nilL(),$3)')
d(3041,'keyword:Yield($1,nilL())')
d(3058,'keywordParen:Defined($1,$3,single($5),$6)')
d(3071,'notParen($1,$2,$3,$4)')
d(3082,'notEmpty($1,$2,$3)')
d(3093,'block(callFn($1,nilL()),$2.0,$2.1,$2.2,$2.3)')
d(3119,'block($1,$2.0,$2.1,$2.2,$2.3)')
d(3139,'condition($1,$2,$3,$4,$5,$6)')
d(3158,'unless_($1,$2,$3,$4,$5.0,$5.1,$6)')
d(3176,'loop_:While($1,$2.0,$2.1,$3,$4)')
d(3192,'loop_:Until($1,$2.0,$2.1,$3,$4)')
d(3213,'case($1,someN($2),$5.0,$5.1,$5.2,$6)')
d(3236,'case($1,noneN(),$4.0,$4.1,$4.2,$5)')
d(3254,'caseMatch($1,$2,$4.0,$4.1,$4.2,$5)')
d(3272,'for_($1,$2,$3,$4.0,$4.1,$5,$6)')
d(3294,'defClass($1,$2,$3.0,$3.1,$5,$6)')
d(3326,'defSclass($1,$2,$3,$6,$7)')
d(3350,'defModule($1,$2,$4,$5)')
d(3369,'defMethod($1.0,$1.1,$2,$3,$4)')
d(3388,'defSingleton($1.0,$1.1,$1.2,$1.3,$2,$3,$4)')
for l,k in ((3409,'Break'),(3421,'Next'),(3433,'Redo'),(3445,'Retry')): d(l,f'keyword:{k}($1,nilL())')
d(3459,'checked($1)')
d((3473,3536,3579,3592),'=1')
d(3510,'$1')
d(3609,'=2')
d(3625,'elseTail($1.0,$1.1)')
d(3632,'elsifTail($1,$2,$3,$4,$5)')
d(3657,'noneT()','noneN()')
d(3661,'someT($1)','$2')
d(3679,'arg($1)')
d(3685,'multiLhs(someT($1),$2,someT($3))')
d(3719,'append(append($1,single($3)),$5)')
d(3735,'append(single($1),$3)')
d(3748,'restarg($1,someT($2))')
d(3754,'restarg($1,noneT())')
d(3782,'append(append($1,$3),$4)')
d(3831,'append(append(append($1,$3),$5),$6)')
d(3845,'append(append(append(append($1,$3),$5),$7),$8)')
d(3861,'append(append($1,$3),$4)')
d(3873,'append(append(append($1,$3),$5),$6)')
d(3887,'append(append($1,$3),$4)')
d(3903,'append(append(append($1,$3),$5),$6)')
d(3917,'procargs($1,$2)')
d(3968,'append(append($1,$3),$4)')
d(4005,'args(noneT(),nilL(),noneT())')
d(4011,'=1')
d(4018,'args(someT($1),$2,someT($3))')
d(4032,'args(someT($1),append($2,$3),someT($4))')
d(4056,'=3')
d(4074,'shadowarg($1)')
d(4104,'lambda($1,argsType($4),$6.0,$6.1,$6.2)')
d(4133,'args(someT($1),append($2,$3),someT($4))')
d(4149,'args(noneT(),$1,noneT())')
d(4167,'$1','$3','$4')
d(4201,'$1','$3.0','$3.1','$4')
d(4216,'block($1,$2.0,$2.1,$2.2,$2.3)')
d(4229,'callDotOpt($1,$2,$3,$4)')
d(4243,'block(callDotOpt($1,$2,$3,$4),$5.0,$5.1,$5.2,$5.3)')
d(4266,'block(callDot($1,$2,$3,$4),$5.0,$5.1,$5.2,$5.3)')
d(4290,'callFnParen($1,$2.0,$2.1,$2.2)')
d(4320,'callDotParen($1,$2,$3,$4.0,$4.1,$4.2)')
d(4335,'callDot($1,$2,$3,nilL())')
d(4348,'callParen($1,$2,$3.0,$3.1,$3.2)')
d(4378,'keywordParen:Super($1,$2.0,$2.1,$2.2)')
d(4392,'keyword:Zsuper($1,nilL())')
d(4404,'index($1,$2,$3,$4)')
d(4422,'$1','$3.0','$3.1','$4')
d(4441,'$1','$3.0','$3.1','$4')
d(4462,'argsType($2)','$3')
d(4488,'argsType($2)','$3')
d(4540,'append(single(when($1,$2,$3,$4)),$5.0)','$5.1','$5.2')
d(4553,'nilL()','$1.0','$1.1')
d(4557,'$1.0','$1.1','$1.2')
d(4582,'append(single(inPattern($1,$3.0,$3.1,$4,$6)),$7.0)','$7.1','$7.2')
d(4603,'nilL()','$1.0','$1.1')
d(4607,'$1.0','$1.1','$1.2')
d(4614,'$1','noneN()')
d(4618,'$1','someN(ifGuard($2,$3))')
d(4623,'$1','someN(unlessGuard($2,$3))')
d(4634,'arrayPattern(noneT(),single($1),someT($2),noneT())')
d(4645,'arrayPattern(noneT(),append(single($1),$3.0),$3.1,noneT())')
d(4657,'findPattern(noneT(),$1,noneT())')
d(4663,'arrayPattern(noneT(),$1,noneT(),noneT())')
d(4669,'hashPattern(noneT(),$1,noneT())')
d(4683,'matchAs($1,$2,$3)')
d(4699,'matchAlt($1,$2,$3)')
d(4715,'=1')
d(4737,'constPattern($1,$2,arrayPattern(noneT(),$3.0,$3.1,noneT()),$4)')
d(4751,'constPattern($1,$2,findPattern(noneT(),$3,noneT()),$4)')
d(4764,'constPattern($1,$2,hashPattern(noneT(),$3,noneT()),$4)')
d(4777,'constPatternEmpty($1,$2,$3)')
d(4855,'arrayPattern(someT($1),$2.0,$2.1,someT($3))')
d(4867,'findPattern(someT($1),$2,someT($3))')
d(4877,'arrayPattern(someT($1),nilL(),noneT(),someT($2))')
d(4894,'hashPattern(someT($1),$3,someT($4))')
d(4906,'hashPattern(someT($1),nilL(),someT($2))')
d(4921,'begin($1,someN($3),$4)')
d(4934,'single($1)','noneT()')
d(4947,'append($1.0,single($2))','noneT()')
d(4959,'append($1.0,single($2))','noneT()')
d(4972,'append(append($1.0,single($2)),$4)','noneT()')
d(4989,'$1','noneT()')
d(5000,'single($1)','someT($2)')
d(5009,'append($1.0,single($2))','someT($3)')
d(5027,'append(single($1),$3)')
d(5038,'append(append(single($1),$3),single($5))')
d(5051,'matchRest($1,someT($2))')
d(5057,'matchRest($1,noneT())')
d(5083,'append($1,$3)')
d(5116,'matchPair($1,$2)')
d(5125,'matchLabel($1)')
d(5135,'plainLabel($1)')
d(5141,'quotedLabel($1,$2,$3)')
d(5149,'single(matchRest($1,someT($2)))')
d(5162,'single(matchRest($1,noneT()))')
d(5177,'$1','$2')
d(5192,'single(matchNilPattern($1.0,$1.1))')
d(5342,'accessible($1)')
d(5354,'assignable(matchVar($1))')
d(5364,'pin($1,accessible(lvar($2)))')
d(5381,'pin($1,accessible($2))')
d(5393,'pin($1,begin($2,someN($3),$4))')
d(5425,'const_($1)')
d(5433,'append(single(rescueClause($1,$2,$3,$4,$5)),$6)')
d(5479,'someExc($1,$2)')
d(5485,'noExc()')
d(5491,'someT($1)','$2')
d(5497,'noneT()','noneN()')
d(5513,'strings($1)')
d(5525,'single(character($1))')
d(5547,'string1($1,$2,$3)')
d(5561,'xstring($1,$2,$3)')
d(5575,'regexp($1,$2,$3)')
d(5590,'wordsCompose($1,$3,$4)')
d(5607,'append($1,single(word($2)))')
d(5629,'symbolsCompose($1,$3,$4)')
d(5683,'append($1,single(stringInternal($2)))')
d(5697,'append($1,single(symbolInternal($2)))')
d(5711,'append($1,single($2))')
d(5743,'stringInternal($1)')
d(5754,'=3')
d(5780,'begin($1,$7,$8)')
d(5800,'gvar($1)')
d(5804,'ivar($1)')
d(5809,'cvar($1)')
d(5823,'symbol($1,$2)')
d(5838,'symbolCompose($1,$2,$3)')
d(5851,'unaryNum($1,$2)')
d(5862,'integer($1)')
d(5868,'float($1)')
d(5874,'rational($1)')
d(5880,'complex($1)')
d(5888,'ivar($1)')
d(5894,'gvar($1)')
d(5900,'cvar($1)')
d(5908,'lvar($1)')
for l,k in ((5940,'nil'),(5946,'self_'),(5952,'true_'),(5958,'false_'),(5964,'file'),(5970,'line'),(5976,'encoding')): d(l,f'{k}($1)')
d(6012,'nthRef($1)')
d(6018,'backRef($1)')
d(6032,'someT($1)','someN($3)')
d(6040,'noneT()','noneN()')
d(6050,'noneN()')
d(6057,'args(someT($1),$2,someT($3))')
d(6079,'args(noneT(),$2,noneT())')
d(6117,'single($1)')
d(6125,'single(forwardArg($1))')
d(6147,'append(append(append($1,$3),$5),$6)')
d(6161,'append(append(append(append($1,$3),$5),$7),$8)')
d(6177,'append(append($1,$3),$4)')
d(6189,'append(append(append($1,$3),$5),$6)')
d(6203,'append(append($1,$3),$4)')
d(6215,'append(append(append($1,$3),$5),$6)')
d(6269,'append(append($1,$3),$4)')
d(6300,'$1')
d(6338,'$1')
d(6348,'$1')
d(6357,'arg($1)')
d(6389,'kwargName($1)')
d(6406,'kwoptarg($1,$2)')
d(6414,'kwarg($1)')
d(6424,'kwoptarg($1,$2)')
d(6431,'kwarg($1)')
d(6475,'single(kwnilarg($1.0,$1.1))')
d(6491,'single(kwrestarg($1,someT($2)))')
d(6503,'single(kwrestarg($1,noneT()))')
d(6515,'optarg($1,$2,$3)')
d(6577,'single(restarg($1,someT($2)))')
d(6590,'single(restarg($1,noneT()))')
d(6612,'blockarg($1,someT($2))')
d(6623,'blockarg($1,noneT())')
d(6645,'checked($1)')
d(6651,'singletonExpr($3)')
d(6697,'append($1,single($3))')
d(6705,'pair($1,$2,$3)')
d(6715,'pairKeyword($1,$2)')
d(6724,'pairLabel($1)')
d(6730,'pairQuoted($1,$2,$3,$4)')
d(6741,'kwsplat($1,$2)')
