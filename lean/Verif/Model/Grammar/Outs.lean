import Verif.Model.Grammar.Values
/-!
What the last action of each production of `src/parser/parse.y` gives to `$$`, in the order of `rules`, with the line of the action.
For `program` it is the value given to `self.result` (src/parser/parse.y:355-357; `$$` is `Value::None` there).
For a production with an action that always fails nothing is listed.
-/
namespace Verif.Grammar

/-- Productions 0 to 39. -/
def outs0 : List (Nat × ValOut) := [
  -- program
  (354, .copy 2),
  -- top_compstmt
  (365, .mk [.call .compstmt [.fld 1 0]]),
  -- top_stmts
  (374, .mk [.call .nilL []]),
  (378, .mk [.call .single [.fld 1 0]]),
  (382, .mk [.call .append [.fld 1 0, .call .single [.fld 3 0]]]),
  (388, .mk [.call .single [.fld 2 0]]),
  -- top_stmt
  (394, .copy 1),
  (398, .mk [.call .preexe [.fld 1 0, .fld 2 0, .fld 2 1, .fld 2 2]]),
  -- begin_block
  (407, .mk [.fld 1 0, .fld 2 0, .fld 3 0]),
  -- bodystmt
  (422, .mk [.call .bodystmtElse [.fld 1 0, .fld 2 0, .fld 3 0, .fld 4 0, .fld 5 0, .fld 5 1]]),
  (444, .mk [.call .bodystmt [.fld 1 0, .fld 2 0, .fld 3 0, .fld 3 1]]),
  -- compstmt
  (461, .mk [.call .compstmt [.fld 1 0]]),
  -- stmts
  (470, .mk [.call .nilL []]),
  (474, .mk [.call .single [.fld 1 0]]),
  (478, .mk [.call .append [.fld 1 0, .call .single [.fld 3 0]]]),
  (484, .mk [.call .nilL []]),
  -- stmt_or_begin
  (490, .copy 1),
  (498, .mk []),
  -- stmt
  (509, .mk [.call .alias [.fld 1 0, .fld 2 0, .fld 4 0]]),
  (515, .mk [.call .alias [.fld 1 0, .call .gvar [.fld 2 0], .call .gvar [.fld 3 0]]]),
  (525, .mk [.call .alias [.fld 1 0, .call .gvar [.fld 2 0], .call .backRef [.fld 3 0]]]),
  (535, .mk []),
  (539, .mk [.call .undefMethod [.fld 1 0, .fld 2 0]]),
  (548, .mk [.call .ifMod [.fld 1 0, .fld 2 0, .fld 3 0]]),
  (559, .mk [.call .unlessMod [.fld 1 0, .fld 2 0, .fld 3 0]]),
  (570, .mk [.call (.loopMod .While) [.fld 1 0, .fld 2 0, .fld 3 0]]),
  (581, .mk [.call (.loopMod .Until) [.fld 1 0, .fld 2 0, .fld 3 0]]),
  (592, .mk [.call .rescueMod [.fld 1 0, .fld 2 0, .fld 3 0]]),
  (612, .mk [.call .postexe [.fld 1 0, .fld 2 0, .fld 3 0, .fld 4 0]]),
  (627, .copy 1),
  (631, .mk [.call .multiAssign [.fld 1 0, .fld 2 0, .call .checked [.fld 3 0]]]),
  (644, .mk [.call .assign [.fld 1 0, .fld 2 0, .call .checked [.call .array [.call .noneT [], .fld 3 0, .call .noneT []]]]]),
  (661, .mk [.call .multiAssign [.fld 1 0, .fld 2 0, .call .rescueMod [.call .checked [.fld 3 0], .fld 4 0, .fld 5 0]]]),
  (690, .mk [.call .multiAssign [.fld 1 0, .fld 2 0, .fld 3 0]]),
  (700, .copy 1),
  -- command_asgn
  (706, .mk [.call .assign [.fld 1 0, .fld 2 0, .fld 3 0]]),
  (716, .mk [.call .opAssign [.fld 1 0, .fld 2 0, .fld 3 0]]),
  (726, .mk [.call .opAssign [.call .index [.fld 1 0, .fld 2 0, .fld 3 0, .fld 4 0], .fld 5 0, .fld 6 0]]),
  (741, .mk [.call .opAssign [.call .callDot [.fld 1 0, .fld 2 0, .fld 3 0, .call .nilL []], .fld 4 0, .fld 5 0]]),
  (758, .mk [.call .opAssign [.call .callDot [.fld 1 0, .fld 2 0, .fld 3 0, .call .nilL []], .fld 4 0, .fld 5 0]])]
/-- Productions 40 to 79. -/
def outs1 : List (Nat × ValOut) := [
  -- command_asgn
  (775, .mk [.call .opAssign [.call .constOpAssignable [.call .constFetch [.fld 1 0, .fld 2 0, .fld 3 0]], .fld 4 0, .fld 5 0]]),
  (792, .mk [.call .opAssign [.call .callDot [.fld 1 0, .fld 2 0, .fld 3 0, .call .nilL []], .fld 4 0, .fld 5 0]]),
  (809, .mk [.call .defEndless [.fld 1 0, .call .endlessName [.fld 1 1], .fld 2 0, .fld 3 0, .call .someN [.fld 4 0]]]),
  (829, .mk [.call .defEndless [.fld 1 0, .call .endlessName [.fld 1 1], .fld 2 0, .fld 3 0, .call .rescueModOpt [.fld 4 0, .fld 5 0, .fld 6 0]]]),
  (865, .mk [.call .defEndlessSingleton [.fld 1 0, .fld 1 1, .fld 1 2, .call .endlessName [.fld 1 3], .fld 2 0, .fld 3 0, .call .someN [.fld 4 0]]]),
  (887, .mk [.call .defEndlessSingleton [.fld 1 0, .fld 1 1, .fld 1 2, .call .endlessName [.fld 1 3], .fld 2 0, .fld 3 0, .call .rescueModOpt [.fld 4 0, .fld 5 0, .fld 6 0]]]),
  (925, .mk [.call .opAssign [.fld 1 0, .fld 2 0, .fld 3 0]]),
  -- command_rhs
  (937, .mk [.call .checked [.fld 1 0]]),
  (943, .mk [.call .rescueMod [.call .checked [.fld 1 0], .fld 2 0, .fld 3 0]]),
  (966, .copy 1),
  -- expr
  (972, .copy 1),
  (976, .mk [.call (.logical .And) [.fld 1 0, .fld 2 0, .fld 3 0]]),
  (987, .mk [.call (.logical .Or) [.fld 1 0, .fld 2 0, .fld 3 0]]),
  (998, .mk [.call .notOp [.fld 1 0, .fld 3 0]]),
  (1009, .mk [.call .notOp [.fld 1 0, .fld 2 0]]),
  (1036, .mk [.call .matchPattern [.fld 1 0, .fld 2 0, .fld 4 0]]),
  (1066, .mk [.call .matchPatternP [.fld 1 0, .fld 2 0, .fld 4 0]]),
  (1080, .copy 1),
  -- def_name
  (1086, .mk [.fld 1 0]),
  -- defn_head
  (1104, .mk [.fld 1 0, .fld 2 0]),
  -- defs_head
  (1121, .mk [.fld 1 0, .fld 2 0, .fld 3 0, .fld 5 0]),
  -- expr_value
  (1136, .mk [.call .checked [.fld 1 0]]),
  -- expr_value_do
  (1148, .mk [.fld 2 0, .fld 3 0]),
  -- command_call
  (1162, .copy 1),
  (1166, .copy 1),
  -- block_command
  (1172, .copy 1),
  (1176, .mk [.call .callDot [.fld 1 0, .fld 2 0, .fld 3 0, .fld 4 0]]),
  -- cmd_brace_block
  (1196, .mk [.fld 1 0, .fld 3 0, .fld 3 1, .fld 4 0]),
  -- fcall
  (1211, .copy 1),
  -- command
  (1217, .mk [.call .callFn [.fld 1 0, .fld 2 0]]),
  (1230, .mk [.call .block [.call .callFn [.fld 1 0, .fld 2 0], .fld 3 0, .fld 3 1, .fld 3 2, .fld 3 3]]),
  (1252, .mk [.call .callDot [.fld 1 0, .fld 2 0, .fld 3 0, .fld 4 0]]),
  (1265, .mk [.call .block [.call .callDot [.fld 1 0, .fld 2 0, .fld 3 0, .fld 4 0], .fld 5 0, .fld 5 1, .fld 5 2, .fld 5 3]]),
  (1287, .mk [.call .callDot [.fld 1 0, .fld 2 0, .fld 3 0, .fld 4 0]]),
  (1300, .mk [.call .block [.call .callDot [.fld 1 0, .fld 2 0, .fld 3 0, .fld 4 0], .fld 5 0, .fld 5 1, .fld 5 2, .fld 5 3]]),
  (1322, .mk [.call (.keyword .Super) [.fld 1 0, .fld 2 0]]),
  (1334, .mk [.call (.keyword .Yield) [.fld 1 0, .fld 2 0]]),
  (1346, .mk [.call (.keyword .Return) [.fld 1 0, .fld 2 0]]),
  (1358, .mk [.call (.keyword .Break) [.fld 1 0, .fld 2 0]]),
  (1370, .mk [.call (.keyword .Next) [.fld 1 0, .fld 2 0]])]
/-- Productions 80 to 119. -/
def outs2 : List (Nat × ValOut) := [
  -- mlhs
  (1384, .mk [.call .multiLhs [.call .noneT [], .fld 1 0, .call .noneT []]]),
  (1394, .mk [.call .begin [.fld 1 0, .call .someN [.fld 2 0], .fld 3 0]]),
  -- mlhs_inner
  (1406, .mk [.call .multiLhs [.call .noneT [], .fld 1 0, .call .noneT []]]),
  (1416, .mk [.call .mlhsInner [.fld 1 0, .fld 2 0, .fld 3 0]]),
  -- mlhs_basic
  (1438, .copy 1),
  (1442, .mk [.call .append [.fld 1 0, .call .single [.fld 2 0]]]),
  (1448, .mk [.call .append [.fld 1 0, .call .single [.call .splat [.fld 2 0, .call .someN [.fld 3 0]]]]]),
  (1455, .mk [.call .append [.call .append [.fld 1 0, .call .single [.call .splat [.fld 2 0, .call .someN [.fld 3 0]]]], .fld 5 0]]),
  (1467, .mk [.call .append [.fld 1 0, .call .single [.call .splat [.fld 2 0, .call .noneN []]]]]),
  (1474, .mk [.call .append [.call .append [.fld 1 0, .call .single [.call .splat [.fld 2 0, .call .noneN []]]], .fld 4 0]]),
  (1486, .mk [.call .single [.call .splat [.fld 1 0, .call .someN [.fld 2 0]]]]),
  (1499, .mk [.call .append [.call .single [.call .splat [.fld 1 0, .call .someN [.fld 2 0]]], .fld 4 0]]),
  (1510, .mk [.call .single [.call .splat [.fld 1 0, .call .noneN []]]]),
  (1523, .mk [.call .append [.call .single [.call .splat [.fld 1 0, .call .noneN []]], .fld 3 0]]),
  -- mlhs_item
  (1536, .copy 1),
  (1540, .mk [.call .begin [.fld 1 0, .call .someN [.fld 2 0], .fld 3 0]]),
  -- mlhs_head
  (1552, .mk [.call .single [.fld 1 0]]),
  (1556, .mk [.call .append [.fld 1 0, .call .single [.fld 2 0]]]),
  -- mlhs_post
  (1564, .mk [.call .single [.fld 1 0]]),
  (1568, .mk [.call .append [.fld 1 0, .call .single [.fld 3 0]]]),
  -- mlhs_node
  (1576, .mk [.call .assignable [.fld 1 0]]),
  (1582, .mk [.call .assignable [.fld 1 0]]),
  (1588, .mk [.call .indexAsgn [.fld 1 0, .fld 2 0, .fld 3 0, .fld 4 0]]),
  (1599, .mk [.call .attrAsgnMasgn [.fld 1 0, .fld 2 0, .fld 3 0]]),
  (1614, .mk [.call .attrAsgn [.fld 1 0, .fld 2 0, .fld 3 0]]),
  (1624, .mk [.call .attrAsgnMasgn [.fld 1 0, .fld 2 0, .fld 3 0]]),
  (1639, .mk [.call .assignable [.call .constFetch [.fld 1 0, .fld 2 0, .fld 3 0]]]),
  (1651, .mk [.call .assignable [.call .constGlobal [.fld 1 0, .fld 2 0]]]),
  (1662, .mk [.call .assignable [.fld 1 0]]),
  -- lhs
  (1672, .mk [.call .assignable [.fld 1 0]]),
  (1678, .mk [.call .assignable [.fld 1 0]]),
  (1684, .mk [.call .indexAsgn [.fld 1 0, .fld 2 0, .fld 3 0, .fld 4 0]]),
  (1695, .mk [.call .attrAsgn [.fld 1 0, .fld 2 0, .fld 3 0]]),
  (1705, .mk [.call .attrAsgn [.fld 1 0, .fld 2 0, .fld 3 0]]),
  (1715, .mk [.call .attrAsgn [.fld 1 0, .fld 2 0, .fld 3 0]]),
  (1725, .mk [.call .assignable [.call .constFetch [.fld 1 0, .fld 2 0, .fld 3 0]]]),
  (1737, .mk [.call .assignable [.call .constGlobal [.fld 1 0, .fld 2 0]]]),
  (1748, .mk [.call .assignable [.fld 1 0]]),
  -- cname
  (1758, .mk []),
  (1762, .copy 1)]
/-- Productions 120 to 159. -/
def outs3 : List (Nat × ValOut) := [
  -- cpath
  (1768, .mk [.call .constGlobal [.fld 1 0, .fld 2 0]]),
  (1774, .mk [.call .const_ [.fld 1 0]]),
  (1780, .mk [.call .constFetch [.fld 1 0, .fld 2 0, .fld 3 0]]),
  -- fname
  (1792, .copy 1),
  (1796, .copy 1),
  (1800, .copy 1),
  (1804, .copy 1),
  (1809, .copy 1),
  -- fitem
  (1815, .mk [.call .symbolInternal [.fld 1 0]]),
  (1821, .copy 1),
  -- undef_list
  (1827, .mk [.call .single [.fld 1 0]]),
  (1836, .mk [.call .append [.fld 1 0, .call .single [.fld 4 0]]]),
  -- op
  (1843, .copy 1),
  (1844, .copy 1),
  (1845, .copy 1),
  (1846, .copy 1),
  (1847, .copy 1),
  (1848, .copy 1),
  (1849, .copy 1),
  (1850, .copy 1),
  (1851, .copy 1),
  (1852, .copy 1),
  (1853, .copy 1),
  (1854, .copy 1),
  (1855, .copy 1),
  (1856, .copy 1),
  (1857, .copy 1),
  (1858, .copy 1),
  (1859, .copy 1),
  (1860, .copy 1),
  (1861, .copy 1),
  (1862, .copy 1),
  (1863, .copy 1),
  (1864, .copy 1),
  (1865, .copy 1),
  (1866, .copy 1),
  (1867, .copy 1),
  (1868, .copy 1),
  (1869, .copy 1),
  (1870, .copy 1)]
/-- Productions 160 to 199. -/
def outs4 : List (Nat × ValOut) := [
  -- op
  (1871, .copy 1),
  (1872, .copy 1),
  -- reswords
  (1875, .copy 1),
  (1876, .copy 1),
  (1877, .copy 1),
  (1878, .copy 1),
  (1879, .copy 1),
  (1880, .copy 1),
  (1881, .copy 1),
  (1882, .copy 1),
  (1883, .copy 1),
  (1884, .copy 1),
  (1885, .copy 1),
  (1886, .copy 1),
  (1887, .copy 1),
  (1888, .copy 1),
  (1889, .copy 1),
  (1890, .copy 1),
  (1891, .copy 1),
  (1892, .copy 1),
  (1893, .copy 1),
  (1894, .copy 1),
  (1895, .copy 1),
  (1896, .copy 1),
  (1897, .copy 1),
  (1898, .copy 1),
  (1899, .copy 1),
  (1900, .copy 1),
  (1901, .copy 1),
  (1902, .copy 1),
  (1903, .copy 1),
  (1904, .copy 1),
  (1905, .copy 1),
  (1906, .copy 1),
  (1907, .copy 1),
  (1908, .copy 1),
  (1909, .copy 1),
  (1910, .copy 1),
  (1911, .copy 1),
  (1912, .copy 1)]
/-- Productions 200 to 239. -/
def outs5 : List (Nat × ValOut) := [
  -- reswords
  (1913, .copy 1),
  (1914, .copy 1),
  (1915, .copy 1),
  -- arg
  (1919, .mk [.call .assign [.fld 1 0, .fld 2 0, .fld 3 0]]),
  (1929, .mk [.call .opAssign [.fld 1 0, .fld 2 0, .fld 3 0]]),
  (1939, .mk [.call .opAssign [.call .index [.fld 1 0, .fld 2 0, .fld 3 0, .fld 4 0], .fld 5 0, .fld 6 0]]),
  (1954, .mk [.call .opAssign [.call .callDot [.fld 1 0, .fld 2 0, .fld 3 0, .call .nilL []], .fld 4 0, .fld 5 0]]),
  (1971, .mk [.call .opAssign [.call .callDot [.fld 1 0, .fld 2 0, .fld 3 0, .call .nilL []], .fld 4 0, .fld 5 0]]),
  (1988, .mk [.call .opAssign [.call .callDot [.fld 1 0, .fld 2 0, .fld 3 0, .call .nilL []], .fld 4 0, .fld 5 0]]),
  (2005, .mk [.call .opAssign [.call .constOpAssignable [.call .constFetch [.fld 1 0, .fld 2 0, .fld 3 0]], .fld 4 0, .fld 5 0]]),
  (2022, .mk [.call .opAssign [.call .constOpAssignable [.call .constGlobal [.fld 1 0, .fld 2 0]], .fld 3 0, .fld 4 0]]),
  (2038, .mk [.call .opAssign [.fld 1 0, .fld 2 0, .fld 3 0]]),
  (2048, .mk [.call .rangeInclusive [.call .someN [.call .checked [.fld 1 0]], .fld 2 0, .call .someN [.call .checked [.fld 3 0]]]]),
  (2064, .mk [.call .rangeExclusive [.call .someN [.call .checked [.fld 1 0]], .fld 2 0, .call .someN [.call .checked [.fld 3 0]]]]),
  (2080, .mk [.call .rangeInclusive [.call .someN [.call .checked [.fld 1 0]], .fld 2 0, .call .noneN []]]),
  (2093, .mk [.call .rangeExclusive [.call .someN [.call .checked [.fld 1 0]], .fld 2 0, .call .noneN []]]),
  (2106, .mk [.call .rangeInclusive [.call .noneN [], .fld 1 0, .call .someN [.call .checked [.fld 2 0]]]]),
  (2119, .mk [.call .rangeExclusive [.call .noneN [], .fld 1 0, .call .someN [.call .checked [.fld 2 0]]]]),
  (2132, .mk [.call .binaryOp [.fld 1 0, .fld 2 0, .fld 3 0]]),
  (2138, .mk [.call .binaryOp [.fld 1 0, .fld 2 0, .fld 3 0]]),
  (2144, .mk [.call .binaryOp [.fld 1 0, .fld 2 0, .fld 3 0]]),
  (2150, .mk [.call .binaryOp [.fld 1 0, .fld 2 0, .fld 3 0]]),
  (2156, .mk [.call .binaryOp [.fld 1 0, .fld 2 0, .fld 3 0]]),
  (2162, .mk [.call .binaryOp [.fld 1 0, .fld 2 0, .fld 3 0]]),
  (2168, .mk [.call .unaryOp [.fld 1 0, .call .binaryOp [.fld 2 0, .fld 3 0, .fld 4 0]]]),
  (2181, .mk [.call .unaryOp [.fld 1 0, .fld 2 0]]),
  (2190, .mk [.call .unaryOp [.fld 1 0, .fld 2 0]]),
  (2199, .mk [.call .binaryOp [.fld 1 0, .fld 2 0, .fld 3 0]]),
  (2205, .mk [.call .binaryOp [.fld 1 0, .fld 2 0, .fld 3 0]]),
  (2211, .mk [.call .binaryOp [.fld 1 0, .fld 2 0, .fld 3 0]]),
  (2217, .mk [.call .binaryOp [.fld 1 0, .fld 2 0, .fld 3 0]]),
  (2223, .copy 1),
  (2227, .mk [.call .binaryOp [.fld 1 0, .fld 2 0, .fld 3 0]]),
  (2233, .mk [.call .binaryOp [.fld 1 0, .fld 2 0, .fld 3 0]]),
  (2239, .mk [.call .binaryOp [.fld 1 0, .fld 2 0, .fld 3 0]]),
  (2245, .mk [.call .matchOp [.fld 1 0, .fld 2 0, .fld 3 0]]),
  (2251, .mk [.call .binaryOp [.fld 1 0, .fld 2 0, .fld 3 0]]),
  (2261, .mk [.call .notOp [.fld 1 0, .fld 2 0]]),
  (2272, .mk [.call .unaryOp [.fld 1 0, .fld 2 0]]),
  (2281, .mk [.call .binaryOp [.fld 1 0, .fld 2 0, .fld 3 0]])]
/-- Productions 240 to 279. -/
def outs6 : List (Nat × ValOut) := [
  -- arg
  (2287, .mk [.call .binaryOp [.fld 1 0, .fld 2 0, .fld 3 0]]),
  (2293, .mk [.call (.logical .And) [.fld 1 0, .fld 2 0, .fld 3 0]]),
  (2304, .mk [.call (.logical .Or) [.fld 1 0, .fld 2 0, .fld 3 0]]),
  (2320, .mk [.call (.keyword .Defined) [.fld 1 0, .call .single [.fld 4 0]]]),
  (2333, .mk [.call .ternary [.call .checked [.fld 1 0], .fld 2 0, .fld 3 0, .fld 5 0, .fld 6 0]]),
  (2348, .mk [.call .defEndless [.fld 1 0, .call .endlessName [.fld 1 1], .fld 2 0, .fld 3 0, .call .someN [.fld 4 0]]]),
  (2368, .mk [.call .defEndless [.fld 1 0, .call .endlessName [.fld 1 1], .fld 2 0, .fld 3 0, .call .rescueModOpt [.fld 4 0, .fld 5 0, .fld 6 0]]]),
  (2404, .mk [.call .defEndlessSingleton [.fld 1 0, .fld 1 1, .fld 1 2, .call .endlessName [.fld 1 3], .fld 2 0, .fld 3 0, .call .someN [.fld 4 0]]]),
  (2426, .mk [.call .defEndlessSingleton [.fld 1 0, .fld 1 1, .fld 1 2, .call .endlessName [.fld 1 3], .fld 2 0, .fld 3 0, .call .rescueModOpt [.fld 4 0, .fld 5 0, .fld 6 0]]]),
  (2464, .copy 1),
  -- relop
  (2470, .copy 1),
  (2474, .copy 1),
  (2478, .copy 1),
  (2482, .copy 1),
  -- rel_expr
  (2488, .mk [.call .binaryOp [.fld 1 0, .fld 2 0, .fld 3 0]]),
  (2498, .mk [.call .binaryOp [.fld 1 0, .fld 2 0, .fld 3 0]]),
  -- arg_value
  (2515, .mk [.call .checked [.fld 1 0]]),
  -- aref_args
  (2523, .mk [.call .nilL []]),
  (2527, .copy 1),
  (2531, .mk [.call .append [.fld 1 0, .call .single [.call .associate [.call .noneT [], .fld 3 0, .call .noneT []]]]]),
  (2543, .mk [.call .single [.call .associate [.call .noneT [], .fld 1 0, .call .noneT []]]]),
  -- arg_rhs
  (2559, .mk [.call .checked [.fld 1 0]]),
  (2565, .mk [.call .rescueMod [.call .checked [.fld 1 0], .fld 2 0, .fld 3 0]]),
  -- paren_args
  (2590, .mk [.fld 1 0, .fld 2 0, .fld 3 0]),
  (2600, .mk [.fld 1 0, .call .append [.fld 2 0, .call .single [.call .forwardedArgs [.fld 4 0]]], .fld 5 0]),
  (2621, .mk [.fld 1 0, .call .single [.call .forwardedArgs [.fld 2 0]], .fld 3 0]),
  -- opt_paren_args
  (2637, .mk [.call .noParens []]),
  (2647, .mk [.call .someParens [.fld 1 0, .fld 1 1, .fld 1 2]]),
  -- opt_call_args
  (2660, .mk [.call .nilL []]),
  (2664, .copy 1),
  (2668, .copy 1),
  (2672, .mk [.call .append [.fld 1 0, .call .single [.call .associate [.call .noneT [], .fld 3 0, .call .noneT []]]]]),
  (2679, .mk [.call .single [.call .associate [.call .noneT [], .fld 1 0, .call .noneT []]]]),
  -- call_args
  (2695, .mk [.call .single [.call .checked [.fld 1 0]]]),
  (2701, .mk [.call .append [.fld 1 0, .fld 2 0]]),
  (2708, .mk [.call .append [.call .single [.call .associate [.call .noneT [], .fld 1 0, .call .noneT []]], .fld 2 0]]),
  (2719, .mk [.call .append [.call .append [.fld 1 0, .call .single [.call .associate [.call .noneT [], .fld 3 0, .call .noneT []]]], .fld 4 0]]),
  (2731, .mk [.call .single [.fld 1 0]]),
  -- command_args
  (2753, .copy 2),
  -- block_arg
  (2765, .mk [.call .blockPass [.fld 1 0, .call .someN [.fld 2 0]]])]
/-- Productions 280 to 319. -/
def outs7 : List (Nat × ValOut) := [
  -- block_arg
  (2774, .mk [.call .blockPass [.fld 1 0, .call .noneN []]]),
  -- opt_block_arg
  (2789, .mk [.call .single [.fld 2 0]]),
  (2793, .mk [.call .nilL []]),
  -- args
  (2799, .mk [.call .single [.fld 1 0]]),
  (2803, .mk [.call .single [.call .splat [.fld 1 0, .call .someN [.fld 2 0]]]]),
  (2816, .mk [.call .append [.fld 1 0, .call .single [.fld 3 0]]]),
  (2822, .mk [.call .append [.fld 1 0, .call .single [.call .splat [.fld 3 0, .call .someN [.fld 4 0]]]]]),
  -- mrhs_arg
  (2831, .mk [.call .array [.call .noneT [], .fld 1 0, .call .noneT []]]),
  (2837, .copy 1),
  -- mrhs
  (2843, .mk [.call .append [.fld 1 0, .call .single [.fld 3 0]]]),
  (2849, .mk [.call .append [.fld 1 0, .call .single [.call .splat [.fld 3 0, .call .someN [.fld 4 0]]]]]),
  (2857, .mk [.call .single [.call .splat [.fld 1 0, .call .someN [.fld 2 0]]]]),
  -- primary
  (2872, .copy 1),
  (2876, .copy 1),
  (2880, .copy 1),
  (2884, .copy 1),
  (2888, .copy 1),
  (2892, .copy 1),
  (2896, .copy 1),
  (2900, .copy 1),
  (2904, .copy 1),
  (2908, .copy 1),
  (2912, .mk [.call .callFn [.fld 1 0, .call .nilL []]]),
  (2931, .mk [.call .beginKeyword [.fld 1 0, .fld 3 0, .fld 4 0]]),
  (2939, .mk [.call .begin [.fld 1 0, .call .noneN [], .fld 3 0]]),
  (2949, .mk [.call .begin [.fld 1 0, .call .someN [.fld 2 0], .fld 4 0]]),
  (2959, .mk [.call .begin [.fld 1 0, .fld 2 0, .fld 3 0]]),
  (2969, .mk [.call .constFetch [.fld 1 0, .fld 2 0, .fld 3 0]]),
  (2979, .mk [.call .constGlobal [.fld 1 0, .fld 2 0]]),
  (2985, .mk [.call .array [.call .someT [.fld 1 0], .fld 2 0, .call .someT [.fld 3 0]]]),
  (2995, .mk [.call .associate [.call .someT [.fld 1 0], .fld 2 0, .call .someT [.fld 3 0]]]),
  (3005, .mk [.call (.keyword .Return) [.fld 1 0, .call .nilL []]]),
  (3017, .mk [.call (.keywordParen .Yield) [.fld 1 0, .fld 2 0, .fld 3 0, .fld 4 0]]),
  (3029, .mk [.call (.keywordParen .Yield) [.fld 1 0, .fld 2 0, .call .nilL [], .fld 3 0]]),
  (3041, .mk [.call (.keyword .Yield) [.fld 1 0, .call .nilL []]]),
  (3058, .mk [.call (.keywordParen .Defined) [.fld 1 0, .fld 3 0, .call .single [.fld 5 0], .fld 6 0]]),
  (3071, .mk [.call .notParen [.fld 1 0, .fld 2 0, .fld 3 0, .fld 4 0]]),
  (3082, .mk [.call .notEmpty [.fld 1 0, .fld 2 0, .fld 3 0]]),
  (3093, .mk [.call .block [.call .callFn [.fld 1 0, .call .nilL []], .fld 2 0, .fld 2 1, .fld 2 2, .fld 2 3]]),
  (3115, .copy 1)]
/-- Productions 320 to 359. -/
def outs8 : List (Nat × ValOut) := [
  -- primary
  (3119, .mk [.call .block [.fld 1 0, .fld 2 0, .fld 2 1, .fld 2 2, .fld 2 3]]),
  (3132, .copy 1),
  (3139, .mk [.call .condition [.fld 1 0, .fld 2 0, .fld 3 0, .fld 4 0, .fld 5 0, .fld 6 0]]),
  (3158, .mk [.call .unless_ [.fld 1 0, .fld 2 0, .fld 3 0, .fld 4 0, .fld 5 0, .fld 5 1, .fld 6 0]]),
  (3176, .mk [.call (.loop_ .While) [.fld 1 0, .fld 2 0, .fld 2 1, .fld 3 0, .fld 4 0]]),
  (3192, .mk [.call (.loop_ .Until) [.fld 1 0, .fld 2 0, .fld 2 1, .fld 3 0, .fld 4 0]]),
  (3213, .mk [.call .case [.fld 1 0, .call .someN [.fld 2 0], .fld 5 0, .fld 5 1, .fld 5 2, .fld 6 0]]),
  (3236, .mk [.call .case [.fld 1 0, .call .noneN [], .fld 4 0, .fld 4 1, .fld 4 2, .fld 5 0]]),
  (3254, .mk [.call .caseMatch [.fld 1 0, .fld 2 0, .fld 4 0, .fld 4 1, .fld 4 2, .fld 5 0]]),
  (3272, .mk [.call .for_ [.fld 1 0, .fld 2 0, .fld 3 0, .fld 4 0, .fld 4 1, .fld 5 0, .fld 6 0]]),
  (3294, .mk [.call .defClass [.fld 1 0, .fld 2 0, .fld 3 0, .fld 3 1, .fld 5 0, .fld 6 0]]),
  (3326, .mk [.call .defSclass [.fld 1 0, .fld 2 0, .fld 3 0, .fld 6 0, .fld 7 0]]),
  (3350, .mk [.call .defModule [.fld 1 0, .fld 2 0, .fld 4 0, .fld 5 0]]),
  (3369, .mk [.call .defMethod [.fld 1 0, .fld 1 1, .fld 2 0, .fld 3 0, .fld 4 0]]),
  (3388, .mk [.call .defSingleton [.fld 1 0, .fld 1 1, .fld 1 2, .fld 1 3, .fld 2 0, .fld 3 0, .fld 4 0]]),
  (3409, .mk [.call (.keyword .Break) [.fld 1 0, .call .nilL []]]),
  (3421, .mk [.call (.keyword .Next) [.fld 1 0, .call .nilL []]]),
  (3433, .mk [.call (.keyword .Redo) [.fld 1 0, .call .nilL []]]),
  (3445, .mk [.call (.keyword .Retry) [.fld 1 0, .call .nilL []]]),
  -- primary_value
  (3459, .mk [.call .checked [.fld 1 0]]),
  -- k_begin
  (3467, .copy 1),
  -- k_if
  (3473, .copy 1),
  -- k_unless
  (3480, .copy 1),
  -- k_while
  (3486, .copy 1),
  -- k_until
  (3492, .copy 1),
  -- k_case
  (3498, .copy 1),
  -- k_for
  (3504, .copy 1),
  -- k_class
  (3510, .mk [.fld 1 0]),
  -- k_module
  (3523, .mk [.fld 1 0]),
  -- k_def
  (3536, .copy 1),
  -- k_do
  (3543, .copy 1),
  -- k_do_block
  (3549, .copy 1),
  -- k_rescue
  (3555, .copy 1),
  -- k_ensure
  (3561, .copy 1),
  -- k_when
  (3567, .copy 1),
  -- k_else
  (3573, .copy 1),
  -- k_elsif
  (3579, .copy 1),
  -- k_end
  (3586, .copy 1),
  -- k_return
  (3592, .copy 1),
  -- then
  (3601, .copy 1)]
/-- Productions 360 to 399. -/
def outs9 : List (Nat × ValOut) := [
  -- then
  (3605, .copy 1),
  (3609, .copy 2),
  -- do
  (3615, .copy 1),
  (3619, .copy 1),
  -- if_tail
  (3625, .mk [.call .elseTail [.fld 1 0, .fld 1 1]]),
  (3632, .mk [.call .elsifTail [.fld 1 0, .fld 2 0, .fld 3 0, .fld 4 0, .fld 5 0]]),
  -- opt_else
  (3657, .mk [.call .noneT [], .call .noneN []]),
  (3661, .mk [.call .someT [.fld 1 0], .fld 2 0]),
  -- for_var
  (3669, .copy 1),
  (3673, .copy 1),
  -- f_marg
  (3679, .mk [.call .arg [.fld 1 0]]),
  (3685, .mk [.call .multiLhs [.call .someT [.fld 1 0], .fld 2 0, .call .someT [.fld 3 0]]]),
  -- f_marg_list
  (3697, .mk [.call .single [.fld 1 0]]),
  (3701, .mk [.call .append [.fld 1 0, .call .single [.fld 3 0]]]),
  -- f_margs
  (3709, .copy 1),
  (3713, .mk [.call .append [.fld 1 0, .call .single [.fld 3 0]]]),
  (3719, .mk [.call .append [.call .append [.fld 1 0, .call .single [.fld 3 0]], .fld 5 0]]),
  (3731, .mk [.call .single [.fld 1 0]]),
  (3735, .mk [.call .append [.call .single [.fld 1 0], .fld 3 0]]),
  -- f_rest_marg
  (3748, .mk [.call .restarg [.fld 1 0, .call .someT [.fld 2 0]]]),
  (3754, .mk [.call .restarg [.fld 1 0, .call .noneT []]]),
  -- f_any_kwrest
  (3762, .copy 1),
  (3766, .copy 1),
  -- f_eq
  (3776, .copy 2),
  -- block_args_tail
  (3782, .mk [.call .append [.call .append [.fld 1 0, .fld 3 0], .fld 4 0]]),
  (3794, .mk [.call .append [.fld 1 0, .fld 2 0]]),
  (3801, .mk [.call .append [.fld 1 0, .fld 2 0]]),
  (3808, .mk [.call .single [.fld 1 0]]),
  -- opt_block_args_tail
  (3815, .copy 2),
  (3819, .mk [.call .nilL []]),
  -- excessed_comma
  (3825, .copy 1),
  -- block_param
  (3831, .mk [.call .append [.call .append [.call .append [.fld 1 0, .fld 3 0], .fld 5 0], .fld 6 0]]),
  (3845, .mk [.call .append [.call .append [.call .append [.call .append [.fld 1 0, .fld 3 0], .fld 5 0], .fld 7 0], .fld 8 0]]),
  (3861, .mk [.call .append [.call .append [.fld 1 0, .fld 3 0], .fld 4 0]]),
  (3873, .mk [.call .append [.call .append [.call .append [.fld 1 0, .fld 3 0], .fld 5 0], .fld 6 0]]),
  (3887, .mk [.call .append [.call .append [.fld 1 0, .fld 3 0], .fld 4 0]]),
  (3899, .copy 1),
  (3903, .mk [.call .append [.call .append [.call .append [.fld 1 0, .fld 3 0], .fld 5 0], .fld 6 0]]),
  (3917, .mk [.call .procargs [.fld 1 0, .fld 2 0]]),
  (3935, .mk [.call .append [.call .append [.fld 1 0, .fld 3 0], .fld 4 0]])]
/-- Productions 400 to 439. -/
def outs10 : List (Nat × ValOut) := [
  -- block_param
  (3947, .mk [.call .append [.call .append [.call .append [.fld 1 0, .fld 3 0], .fld 5 0], .fld 6 0]]),
  (3961, .mk [.call .append [.fld 1 0, .fld 2 0]]),
  (3968, .mk [.call .append [.call .append [.fld 1 0, .fld 3 0], .fld 4 0]]),
  (3980, .mk [.call .append [.fld 1 0, .fld 2 0]]),
  (3987, .mk [.call .append [.call .append [.fld 1 0, .fld 3 0], .fld 4 0]]),
  (3999, .copy 1),
  -- opt_block_param
  (4005, .mk [.call .args [.call .noneT [], .call .nilL [], .call .noneT []]]),
  (4011, .copy 1),
  -- block_param_def
  (4018, .mk [.call .args [.call .someT [.fld 1 0], .fld 2 0, .call .someT [.fld 3 0]]]),
  (4032, .mk [.call .args [.call .someT [.fld 1 0], .call .append [.fld 2 0, .fld 3 0], .call .someT [.fld 4 0]]]),
  -- opt_bv_decl
  (4052, .mk [.call .nilL []]),
  (4056, .copy 3),
  -- bv_decls
  (4062, .mk [.call .single [.fld 1 0]]),
  (4066, .mk [.call .append [.fld 1 0, .call .single [.fld 3 0]]]),
  -- bvar
  (4074, .mk [.call .shadowarg [.fld 1 0]]),
  (4082, .mk []),
  -- lambda
  (4104, .mk [.call .lambda [.fld 1 0, .call .argsType [.fld 4 0], .fld 6 0, .fld 6 1, .fld 6 2]]),
  -- f_larglist
  (4133, .mk [.call .args [.call .someT [.fld 1 0], .call .append [.fld 2 0, .fld 3 0], .call .someT [.fld 4 0]]]),
  (4149, .mk [.call .args [.call .noneT [], .fld 1 0, .call .noneT []]]),
  -- lambda_body
  (4167, .mk [.fld 1 0, .fld 3 0, .fld 4 0]),
  (4183, .mk [.fld 1 0, .fld 3 0, .fld 4 0]),
  -- do_block
  (4201, .mk [.fld 1 0, .fld 3 0, .fld 3 1, .fld 4 0]),
  -- block_call
  (4216, .mk [.call .block [.fld 1 0, .fld 2 0, .fld 2 1, .fld 2 2, .fld 2 3]]),
  (4229, .mk [.call .callDotOpt [.fld 1 0, .fld 2 0, .fld 3 0, .fld 4 0]]),
  (4243, .mk [.call .block [.call .callDotOpt [.fld 1 0, .fld 2 0, .fld 3 0, .fld 4 0], .fld 5 0, .fld 5 1, .fld 5 2, .fld 5 3]]),
  (4266, .mk [.call .block [.call .callDot [.fld 1 0, .fld 2 0, .fld 3 0, .fld 4 0], .fld 5 0, .fld 5 1, .fld 5 2, .fld 5 3]]),
  -- method_call
  (4290, .mk [.call .callFnParen [.fld 1 0, .fld 2 0, .fld 2 1, .fld 2 2]]),
  (4305, .mk [.call .callDotOpt [.fld 1 0, .fld 2 0, .fld 3 0, .fld 4 0]]),
  (4320, .mk [.call .callDotParen [.fld 1 0, .fld 2 0, .fld 3 0, .fld 4 0, .fld 4 1, .fld 4 2]]),
  (4335, .mk [.call .callDot [.fld 1 0, .fld 2 0, .fld 3 0, .call .nilL []]]),
  (4348, .mk [.call .callParen [.fld 1 0, .fld 2 0, .fld 3 0, .fld 3 1, .fld 3 2]]),
  (4363, .mk [.call .callParen [.fld 1 0, .fld 2 0, .fld 3 0, .fld 3 1, .fld 3 2]]),
  (4378, .mk [.call (.keywordParen .Super) [.fld 1 0, .fld 2 0, .fld 2 1, .fld 2 2]]),
  (4392, .mk [.call (.keyword .Zsuper) [.fld 1 0, .call .nilL []]]),
  (4404, .mk [.call .index [.fld 1 0, .fld 2 0, .fld 3 0, .fld 4 0]]),
  -- brace_block
  (4422, .mk [.fld 1 0, .fld 3 0, .fld 3 1, .fld 4 0]),
  (4441, .mk [.fld 1 0, .fld 3 0, .fld 3 1, .fld 4 0]),
  -- brace_body
  (4462, .mk [.call .argsType [.fld 2 0], .fld 3 0]),
  -- do_body
  (4488, .mk [.call .argsType [.fld 2 0], .fld 3 0]),
  -- case_args
  (4506, .mk [.call .single [.fld 1 0]])]
/-- Productions 440 to 479. -/
def outs11 : List (Nat × ValOut) := [
  -- case_args
  (4510, .mk [.call .single [.call .splat [.fld 1 0, .call .someN [.fld 2 0]]]]),
  (4523, .mk [.call .append [.fld 1 0, .call .single [.fld 3 0]]]),
  (4529, .mk [.call .append [.fld 1 0, .call .single [.call .splat [.fld 3 0, .call .someN [.fld 4 0]]]]]),
  -- case_body
  (4540, .mk [.call .append [.call .single [.call .when [.fld 1 0, .fld 2 0, .fld 3 0, .fld 4 0]], .fld 5 0], .fld 5 1, .fld 5 2]),
  -- cases
  (4553, .mk [.call .nilL [], .fld 1 0, .fld 1 1]),
  (4557, .mk [.fld 1 0, .fld 1 1, .fld 1 2]),
  -- p_case_body
  (4582, .mk [.call .append [.call .single [.call .inPattern [.fld 1 0, .fld 3 0, .fld 3 1, .fld 4 0, .fld 6 0]], .fld 7 0], .fld 7 1, .fld 7 2]),
  -- p_cases
  (4603, .mk [.call .nilL [], .fld 1 0, .fld 1 1]),
  (4607, .mk [.fld 1 0, .fld 1 1, .fld 1 2]),
  -- p_top_expr
  (4614, .mk [.fld 1 0, .call .noneN []]),
  (4618, .mk [.fld 1 0, .call .someN [.call .ifGuard [.fld 2 0, .fld 3 0]]]),
  (4623, .mk [.fld 1 0, .call .someN [.call .unlessGuard [.fld 2 0, .fld 3 0]]]),
  -- p_top_expr_body
  (4630, .copy 1),
  (4634, .mk [.call .arrayPattern [.call .noneT [], .call .single [.fld 1 0], .call .someT [.fld 2 0], .call .noneT []]]),
  (4645, .mk [.call .arrayPattern [.call .noneT [], .call .append [.call .single [.fld 1 0], .fld 3 0], .fld 3 1, .call .noneT []]]),
  (4657, .mk [.call .findPattern [.call .noneT [], .fld 1 0, .call .noneT []]]),
  (4663, .mk [.call .arrayPattern [.call .noneT [], .fld 1 0, .call .noneT [], .call .noneT []]]),
  (4669, .mk [.call .hashPattern [.call .noneT [], .fld 1 0, .call .noneT []]]),
  -- p_expr
  (4677, .copy 1),
  -- p_as
  (4683, .mk [.call .matchAs [.fld 1 0, .fld 2 0, .fld 3 0]]),
  (4693, .copy 1),
  -- p_alt
  (4699, .mk [.call .matchAlt [.fld 1 0, .fld 2 0, .fld 3 0]]),
  (4709, .copy 1),
  -- p_lparen
  (4715, .copy 1),
  -- p_lbracket
  (4722, .copy 1),
  -- p_expr_basic
  (4729, .copy 1),
  (4733, .copy 1),
  (4737, .mk [.call .constPattern [.fld 1 0, .fld 2 0, .call .arrayPattern [.call .noneT [], .fld 3 0, .fld 3 1, .call .noneT []], .fld 4 0]]),
  (4751, .mk [.call .constPattern [.fld 1 0, .fld 2 0, .call .findPattern [.call .noneT [], .fld 3 0, .call .noneT []], .fld 4 0]]),
  (4764, .mk [.call .constPattern [.fld 1 0, .fld 2 0, .call .hashPattern [.call .noneT [], .fld 3 0, .call .noneT []], .fld 4 0]]),
  (4777, .mk [.call .constPatternEmpty [.fld 1 0, .fld 2 0, .fld 3 0]]),
  (4796, .mk [.call .constPattern [.fld 1 0, .fld 2 0, .call .arrayPattern [.call .noneT [], .fld 3 0, .fld 3 1, .call .noneT []], .fld 4 0]]),
  (4810, .mk [.call .constPattern [.fld 1 0, .fld 2 0, .call .findPattern [.call .noneT [], .fld 3 0, .call .noneT []], .fld 4 0]]),
  (4823, .mk [.call .constPattern [.fld 1 0, .fld 2 0, .call .hashPattern [.call .noneT [], .fld 3 0, .call .noneT []], .fld 4 0]]),
  (4836, .mk [.call .constPatternEmpty [.fld 1 0, .fld 2 0, .fld 3 0]]),
  (4855, .mk [.call .arrayPattern [.call .someT [.fld 1 0], .fld 2 0, .fld 2 1, .call .someT [.fld 3 0]]]),
  (4867, .mk [.call .findPattern [.call .someT [.fld 1 0], .fld 2 0, .call .someT [.fld 3 0]]]),
  (4877, .mk [.call .arrayPattern [.call .someT [.fld 1 0], .call .nilL [], .call .noneT [], .call .someT [.fld 2 0]]]),
  (4894, .mk [.call .hashPattern [.call .someT [.fld 1 0], .fld 3 0, .call .someT [.fld 4 0]]]),
  (4906, .mk [.call .hashPattern [.call .someT [.fld 1 0], .call .nilL [], .call .someT [.fld 2 0]]])]
/-- Productions 480 to 519. -/
def outs12 : List (Nat × ValOut) := [
  -- p_expr_basic
  (4921, .mk [.call .begin [.fld 1 0, .call .someN [.fld 3 0], .fld 4 0]]),
  -- p_args
  (4934, .mk [.call .single [.fld 1 0], .call .noneT []]),
  (4943, .copy 1),
  (4947, .mk [.call .append [.fld 1 0, .call .single [.fld 2 0]], .call .noneT []]),
  (4959, .mk [.call .append [.fld 1 0, .call .single [.fld 2 0]], .call .noneT []]),
  (4972, .mk [.call .append [.call .append [.fld 1 0, .call .single [.fld 2 0]], .fld 4 0], .call .noneT []]),
  (4989, .mk [.fld 1 0, .call .noneT []]),
  -- p_args_head
  (5000, .mk [.call .single [.fld 1 0], .call .someT [.fld 2 0]]),
  (5009, .mk [.call .append [.fld 1 0, .call .single [.fld 2 0]], .call .someT [.fld 3 0]]),
  -- p_args_tail
  (5023, .mk [.call .single [.fld 1 0]]),
  (5027, .mk [.call .append [.call .single [.fld 1 0], .fld 3 0]]),
  -- p_find
  (5038, .mk [.call .append [.call .append [.call .single [.fld 1 0], .fld 3 0], .call .single [.fld 5 0]]]),
  -- p_rest
  (5051, .mk [.call .matchRest [.fld 1 0, .call .someT [.fld 2 0]]]),
  (5057, .mk [.call .matchRest [.fld 1 0, .call .noneT []]]),
  -- p_args_post
  (5065, .mk [.call .single [.fld 1 0]]),
  (5069, .mk [.call .append [.fld 1 0, .call .single [.fld 3 0]]]),
  -- p_arg
  (5077, .copy 1),
  -- p_kwargs
  (5083, .mk [.call .append [.fld 1 0, .fld 3 0]]),
  (5090, .copy 1),
  (5094, .copy 1),
  (5098, .copy 1),
  -- p_kwarg
  (5104, .mk [.call .single [.fld 1 0]]),
  (5108, .mk [.call .append [.fld 1 0, .call .single [.fld 3 0]]]),
  -- p_kw
  (5116, .mk [.call .matchPair [.fld 1 0, .fld 2 0]]),
  (5125, .mk [.call .matchLabel [.fld 1 0]]),
  -- p_kw_label
  (5135, .mk [.call .plainLabel [.fld 1 0]]),
  (5141, .mk [.call .quotedLabel [.fld 1 0, .fld 2 0, .fld 3 0]]),
  -- p_kwrest
  (5149, .mk [.call .single [.call .matchRest [.fld 1 0, .call .someT [.fld 2 0]]]]),
  (5162, .mk [.call .single [.call .matchRest [.fld 1 0, .call .noneT []]]]),
  -- p_kwnorest
  (5177, .mk [.fld 1 0, .fld 2 0]),
  -- p_any_kwrest
  (5188, .copy 1),
  (5192, .mk [.call .single [.call .matchNilPattern [.fld 1 0, .fld 1 1]]]),
  -- p_value
  (5208, .copy 1),
  (5212, .mk [.call .rangeInclusive [.call .someN [.call .checked [.fld 1 0]], .fld 2 0, .call .someN [.call .checked [.fld 3 0]]]]),
  (5228, .mk [.call .rangeExclusive [.call .someN [.call .checked [.fld 1 0]], .fld 2 0, .call .someN [.call .checked [.fld 3 0]]]]),
  (5244, .mk [.call .rangeInclusive [.call .someN [.call .checked [.fld 1 0]], .fld 2 0, .call .noneN []]]),
  (5257, .mk [.call .rangeExclusive [.call .someN [.call .checked [.fld 1 0]], .fld 2 0, .call .noneN []]]),
  (5270, .copy 1),
  (5274, .copy 1),
  (5278, .copy 1)]
/-- Productions 520 to 559. -/
def outs13 : List (Nat × ValOut) := [
  -- p_value
  (5282, .mk [.call .rangeInclusive [.call .noneN [], .fld 1 0, .call .someN [.call .checked [.fld 2 0]]]]),
  (5295, .mk [.call .rangeExclusive [.call .noneN [], .fld 1 0, .call .someN [.call .checked [.fld 2 0]]]]),
  -- p_primitive
  (5310, .copy 1),
  (5314, .copy 1),
  (5318, .copy 1),
  (5322, .copy 1),
  (5326, .copy 1),
  (5330, .copy 1),
  (5334, .copy 1),
  (5338, .copy 1),
  (5342, .mk [.call .accessible [.fld 1 0]]),
  (5348, .copy 1),
  -- p_variable
  (5354, .mk [.call .assignable [.call .matchVar [.fld 1 0]]]),
  -- p_var_ref
  (5364, .mk [.call .pin [.fld 1 0, .call .accessible [.call .lvar [.fld 2 0]]]]),
  (5381, .mk [.call .pin [.fld 1 0, .call .accessible [.fld 2 0]]]),
  -- p_expr_ref
  (5393, .mk [.call .pin [.fld 1 0, .call .begin [.fld 2 0, .call .someN [.fld 3 0], .fld 4 0]]]),
  -- p_const
  (5409, .mk [.call .constGlobal [.fld 1 0, .fld 2 0]]),
  (5415, .mk [.call .constFetch [.fld 1 0, .fld 2 0, .fld 3 0]]),
  (5425, .mk [.call .const_ [.fld 1 0]]),
  -- opt_rescue
  (5433, .mk [.call .append [.call .single [.call .rescueClause [.fld 1 0, .fld 2 0, .fld 3 0, .fld 4 0, .fld 5 0]], .fld 6 0]]),
  (5459, .mk [.call .nilL []]),
  -- exc_list
  (5465, .mk [.call .single [.fld 1 0]]),
  (5469, .copy 1),
  (5473, .mk [.call .nilL []]),
  -- exc_var
  (5479, .mk [.call .someExc [.fld 1 0, .fld 2 0]]),
  (5485, .mk [.call .noExc []]),
  -- opt_ensure
  (5491, .mk [.call .someT [.fld 1 0], .fld 2 0]),
  (5497, .mk [.call .noneT [], .call .noneN []]),
  -- literal
  (5503, .copy 1),
  (5507, .copy 1),
  -- strings
  (5513, .mk [.call .strings [.fld 1 0]]),
  -- string
  (5525, .mk [.call .single [.call .character [.fld 1 0]]]),
  (5535, .mk [.call .single [.fld 1 0]]),
  (5539, .mk [.call .append [.fld 1 0, .call .single [.fld 2 0]]]),
  -- string1
  (5547, .mk [.call .string1 [.fld 1 0, .fld 2 0, .fld 3 0]]),
  -- xstring
  (5561, .mk [.call .xstring [.fld 1 0, .fld 2 0, .fld 3 0]]),
  -- regexp
  (5575, .mk [.call .regexp [.fld 1 0, .fld 2 0, .fld 3 0]]),
  -- words
  (5590, .mk [.call .wordsCompose [.fld 1 0, .fld 3 0, .fld 4 0]]),
  -- word_list
  (5602, .mk [.call .nilL []]),
  (5607, .mk [.call .append [.fld 1 0, .call .single [.call .word [.fld 2 0]]]])]
/-- Productions 560 to 599. -/
def outs14 : List (Nat × ValOut) := [
  -- word
  (5617, .mk [.call .single [.fld 1 0]]),
  (5621, .mk [.call .append [.fld 1 0, .call .single [.fld 2 0]]]),
  -- symbols
  (5629, .mk [.call .symbolsCompose [.fld 1 0, .fld 3 0, .fld 4 0]]),
  -- symbol_list
  (5641, .mk [.call .nilL []]),
  (5645, .mk [.call .append [.fld 1 0, .call .single [.call .word [.fld 2 0]]]]),
  -- qwords
  (5655, .mk [.call .wordsCompose [.fld 1 0, .fld 3 0, .fld 4 0]]),
  -- qsymbols
  (5667, .mk [.call .symbolsCompose [.fld 1 0, .fld 3 0, .fld 4 0]]),
  -- qword_list
  (5679, .mk [.call .nilL []]),
  (5683, .mk [.call .append [.fld 1 0, .call .single [.call .stringInternal [.fld 2 0]]]]),
  -- qsym_list
  (5693, .mk [.call .nilL []]),
  (5697, .mk [.call .append [.fld 1 0, .call .single [.call .symbolInternal [.fld 2 0]]]]),
  -- string_contents
  (5707, .mk [.call .nilL []]),
  (5711, .mk [.call .append [.fld 1 0, .call .single [.fld 2 0]]]),
  -- xstring_contents
  (5719, .mk [.call .nilL []]),
  (5723, .mk [.call .append [.fld 1 0, .call .single [.fld 2 0]]]),
  -- regexp_contents
  (5731, .mk [.call .nilL []]),
  (5735, .mk [.call .append [.fld 1 0, .call .single [.fld 2 0]]]),
  -- string_content
  (5743, .mk [.call .stringInternal [.fld 1 0]]),
  (5754, .copy 3),
  (5780, .mk [.call .begin [.fld 1 0, .fld 7 0, .fld 8 0]]),
  -- string_dvar
  (5800, .mk [.call .gvar [.fld 1 0]]),
  (5804, .mk [.call .ivar [.fld 1 0]]),
  (5809, .mk [.call .cvar [.fld 1 0]]),
  (5813, .copy 1),
  -- symbol
  (5818, .copy 1),
  (5819, .copy 1),
  -- ssym
  (5823, .mk [.call .symbol [.fld 1 0, .fld 2 0]]),
  -- sym
  (5831, .copy 1),
  (5832, .copy 1),
  (5833, .copy 1),
  (5834, .copy 1),
  -- dsym
  (5838, .mk [.call .symbolCompose [.fld 1 0, .fld 2 0, .fld 3 0]]),
  -- numeric
  (5847, .copy 1),
  (5851, .mk [.call .unaryNum [.fld 1 0, .fld 2 0]]),
  -- simple_numeric
  (5862, .mk [.call .integer [.fld 1 0]]),
  (5868, .mk [.call .float [.fld 1 0]]),
  (5874, .mk [.call .rational [.fld 1 0]]),
  (5880, .mk [.call .complex [.fld 1 0]]),
  -- nonlocal_var
  (5888, .mk [.call .ivar [.fld 1 0]]),
  (5894, .mk [.call .gvar [.fld 1 0]])]
/-- Productions 600 to 639. -/
def outs15 : List (Nat × ValOut) := [
  -- nonlocal_var
  (5900, .mk [.call .cvar [.fld 1 0]]),
  -- user_variable
  (5908, .mk [.call .lvar [.fld 1 0]]),
  (5914, .mk [.call .ivar [.fld 1 0]]),
  (5920, .mk [.call .gvar [.fld 1 0]]),
  (5926, .mk [.call .const_ [.fld 1 0]]),
  (5932, .mk [.call .cvar [.fld 1 0]]),
  -- keyword_variable
  (5940, .mk [.call .nil [.fld 1 0]]),
  (5946, .mk [.call .self_ [.fld 1 0]]),
  (5952, .mk [.call .true_ [.fld 1 0]]),
  (5958, .mk [.call .false_ [.fld 1 0]]),
  (5964, .mk [.call .file [.fld 1 0]]),
  (5970, .mk [.call .line [.fld 1 0]]),
  (5976, .mk [.call .encoding [.fld 1 0]]),
  -- var_ref
  (5984, .mk [.call .accessible [.fld 1 0]]),
  (5990, .mk [.call .accessible [.fld 1 0]]),
  -- var_lhs
  (5998, .mk [.call .assignable [.fld 1 0]]),
  (6004, .mk [.call .assignable [.fld 1 0]]),
  -- backref
  (6012, .mk [.call .nthRef [.fld 1 0]]),
  (6018, .mk [.call .backRef [.fld 1 0]]),
  -- superclass
  (6032, .mk [.call .someT [.fld 1 0], .call .someN [.fld 3 0]]),
  (6040, .mk [.call .noneT [], .call .noneN []]),
  -- f_opt_paren_args
  (6046, .copy 1),
  (6050, .mk [.call .noneN []]),
  -- f_paren_args
  (6057, .mk [.call .args [.call .someT [.fld 1 0], .fld 2 0, .call .someT [.fld 3 0]]]),
  -- f_arglist
  (6069, .copy 1),
  (6079, .mk [.call .args [.call .noneT [], .fld 2 0, .call .noneT []]]),
  -- args_tail
  (6091, .mk [.call .append [.call .append [.fld 1 0, .fld 3 0], .fld 4 0]]),
  (6103, .mk [.call .append [.fld 1 0, .fld 2 0]]),
  (6110, .mk [.call .append [.fld 1 0, .fld 2 0]]),
  (6117, .mk [.call .single [.fld 1 0]]),
  (6125, .mk [.call .single [.call .forwardArg [.fld 1 0]]]),
  -- opt_args_tail
  (6137, .copy 2),
  (6141, .mk [.call .nilL []]),
  -- f_args
  (6147, .mk [.call .append [.call .append [.call .append [.fld 1 0, .fld 3 0], .fld 5 0], .fld 6 0]]),
  (6161, .mk [.call .append [.call .append [.call .append [.call .append [.fld 1 0, .fld 3 0], .fld 5 0], .fld 7 0], .fld 8 0]]),
  (6177, .mk [.call .append [.call .append [.fld 1 0, .fld 3 0], .fld 4 0]]),
  (6189, .mk [.call .append [.call .append [.call .append [.fld 1 0, .fld 3 0], .fld 5 0], .fld 6 0]]),
  (6203, .mk [.call .append [.call .append [.fld 1 0, .fld 3 0], .fld 4 0]]),
  (6215, .mk [.call .append [.call .append [.call .append [.fld 1 0, .fld 3 0], .fld 5 0], .fld 6 0]]),
  (6229, .mk [.call .append [.fld 1 0, .fld 2 0]])]
/-- Productions 640 to 679. -/
def outs16 : List (Nat × ValOut) := [
  -- f_args
  (6236, .mk [.call .append [.call .append [.fld 1 0, .fld 3 0], .fld 4 0]]),
  (6248, .mk [.call .append [.call .append [.call .append [.fld 1 0, .fld 3 0], .fld 5 0], .fld 6 0]]),
  (6262, .mk [.call .append [.fld 1 0, .fld 2 0]]),
  (6269, .mk [.call .append [.call .append [.fld 1 0, .fld 3 0], .fld 4 0]]),
  (6281, .mk [.call .append [.fld 1 0, .fld 2 0]]),
  (6288, .mk [.call .append [.call .append [.fld 1 0, .fld 3 0], .fld 4 0]]),
  (6300, .mk [.fld 1 0]),
  (6304, .mk [.call .nilL []]),
  -- args_forward
  (6310, .copy 1),
  -- f_bad_arg
  (6316, .mk []),
  (6320, .mk []),
  (6324, .mk []),
  (6328, .mk []),
  -- f_norm_arg
  (6334, .copy 1),
  (6338, .mk [.fld 1 0]),
  -- f_arg_asgn
  (6348, .mk [.fld 1 0]),
  -- f_arg_item
  (6357, .mk [.call .arg [.fld 1 0]]),
  (6364, .mk [.call .multiLhs [.call .someT [.fld 1 0], .fld 2 0, .call .someT [.fld 3 0]]]),
  -- f_arg
  (6376, .mk [.call .single [.fld 1 0]]),
  (6380, .mk [.call .append [.fld 1 0, .call .single [.fld 3 0]]]),
  -- f_label
  (6389, .mk [.call .kwargName [.fld 1 0]]),
  -- f_kw
  (6406, .mk [.call .kwoptarg [.fld 1 0, .fld 2 0]]),
  (6414, .mk [.call .kwarg [.fld 1 0]]),
  -- f_block_kw
  (6424, .mk [.call .kwoptarg [.fld 1 0, .fld 2 0]]),
  (6431, .mk [.call .kwarg [.fld 1 0]]),
  -- f_block_kwarg
  (6440, .mk [.call .single [.fld 1 0]]),
  (6444, .mk [.call .append [.fld 1 0, .call .single [.fld 3 0]]]),
  -- f_kwarg
  (6453, .mk [.call .single [.fld 1 0]]),
  (6457, .mk [.call .append [.fld 1 0, .call .single [.fld 3 0]]]),
  -- kwrest_mark
  (6465, .copy 1),
  (6469, .copy 1),
  -- f_no_kwarg
  (6475, .mk [.call .single [.call .kwnilarg [.fld 1 0, .fld 1 1]]]),
  -- f_kwrest
  (6491, .mk [.call .single [.call .kwrestarg [.fld 1 0, .call .someT [.fld 2 0]]]]),
  (6503, .mk [.call .single [.call .kwrestarg [.fld 1 0, .call .noneT []]]]),
  -- f_opt
  (6515, .mk [.call .optarg [.fld 1 0, .fld 2 0, .fld 3 0]]),
  -- f_block_opt
  (6529, .mk [.call .optarg [.fld 1 0, .fld 2 0, .fld 3 0]]),
  -- f_block_optarg
  (6543, .mk [.call .single [.fld 1 0]]),
  (6547, .mk [.call .append [.fld 1 0, .call .single [.fld 3 0]]]),
  -- f_optarg
  (6555, .mk [.call .single [.fld 1 0]]),
  (6559, .mk [.call .append [.fld 1 0, .call .single [.fld 3 0]]])]
/-- Productions 680 to 719. -/
def outs17 : List (Nat × ValOut) := [
  -- restarg_mark
  (6567, .copy 1),
  (6571, .copy 1),
  -- f_rest_arg
  (6577, .mk [.call .single [.call .restarg [.fld 1 0, .call .someT [.fld 2 0]]]]),
  (6590, .mk [.call .single [.call .restarg [.fld 1 0, .call .noneT []]]]),
  -- blkarg_mark
  (6602, .copy 1),
  (6606, .copy 1),
  -- f_block_arg
  (6612, .mk [.call .blockarg [.fld 1 0, .call .someT [.fld 2 0]]]),
  (6623, .mk [.call .blockarg [.fld 1 0, .call .noneT []]]),
  -- opt_f_block_arg
  (6635, .mk [.call .single [.fld 2 0]]),
  (6639, .mk [.call .nilL []]),
  -- singleton
  (6645, .mk [.call .checked [.fld 1 0]]),
  (6651, .mk [.call .singletonExpr [.fld 3 0]]),
  -- assoc_list
  (6683, .mk [.call .nilL []]),
  (6687, .copy 1),
  -- assocs
  (6693, .mk [.call .single [.fld 1 0]]),
  (6697, .mk [.call .append [.fld 1 0, .call .single [.fld 3 0]]]),
  -- assoc
  (6705, .mk [.call .pair [.fld 1 0, .fld 2 0, .fld 3 0]]),
  (6715, .mk [.call .pairKeyword [.fld 1 0, .fld 2 0]]),
  (6724, .mk [.call .pairLabel [.fld 1 0]]),
  (6730, .mk [.call .pairQuoted [.fld 1 0, .fld 2 0, .fld 3 0, .fld 4 0]]),
  (6741, .mk [.call .kwsplat [.fld 1 0, .fld 2 0]]),
  -- operation
  (6749, .copy 1),
  (6753, .copy 1),
  (6757, .copy 1),
  -- operation2
  (6763, .copy 1),
  (6767, .copy 1),
  -- operation3
  (6773, .copy 1),
  (6777, .copy 1),
  (6781, .copy 1),
  -- dot_or_colon
  (6787, .copy 1),
  (6791, .copy 1),
  -- call_op
  (6797, .copy 1),
  (6801, .copy 1),
  -- call_op2
  (6807, .copy 1),
  (6811, .copy 1),
  -- opt_terms
  (6817, .mk []),
  (6821, .mk []),
  -- opt_nl
  (6827, .mk []),
  (6831, .mk []),
  -- rparen
  (6837, .copy 2)]
/-- Productions 720 to 729. -/
def outs18 : List (Nat × ValOut) := [
  -- rbracket
  (6843, .copy 2),
  -- rbrace
  (6849, .copy 2),
  -- trailer
  (6855, .mk []),
  (6859, .mk []),
  (6863, .mk []),
  -- term
  (6869, .copy 1),
  (6873, .copy 1),
  -- terms
  (6879, .mk []),
  (6883, .mk []),
  -- none
  (6889, .mk [])]

/-- All productions. -/
def outs : List (Nat × ValOut) :=
  outs0 ++ outs1 ++ outs2 ++ outs3 ++ outs4 ++ outs5 ++ outs6 ++ outs7 ++ outs8 ++ outs9 ++ outs10 ++ outs11 ++ outs12 ++ outs13 ++ outs14 ++ outs15 ++ outs16 ++ outs17 ++ outs18

mutual
/-- `vs` is a possible semantic value of the tree: the value of a token is the token; the value of a production comes from the
values of its symbols by its last action. -/
def Evals (ext : BldExt) : TTree → List Atom → Prop
  | .leaf t, vs => vs = [.tok t]
  | .node r kids, vs => ∃ ρ o, rules[r]? = some ρ ∧ outs[r]? = some o ∧ ρ.rhs.all (fun i => !i.refuses) = true ∧
      ∃ vss, evalsL ext kids vss ∧ o.2.Gives ext (slots ρ.rhs vss) vs
/-- The same for a list. -/
def evalsL (ext : BldExt) : List TTree → List (List Atom) → Prop
  | [], vss => vss = []
  | t :: ts, vss => ∃ v vs, vss = v :: vs ∧ Evals ext t v ∧ evalsL ext ts vs
end

end Verif.Grammar
