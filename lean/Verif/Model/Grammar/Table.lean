import Verif.Model.Grammar.Types
/-!
The productions of `src/parser/parse.y:344-6893` (all 730 of them), see `Verif.Model.Grammar.Types`. Each rule carries the line
of its first symbol and each action the line of its opening brace.
-/
namespace Verif.Grammar

namespace NT
def program : NT := 0
def top_compstmt : NT := 1
def top_stmts : NT := 2
def top_stmt : NT := 3
def begin_block : NT := 4
def bodystmt : NT := 5
def compstmt : NT := 6
def stmts : NT := 7
def stmt_or_begin : NT := 8
def stmt : NT := 9
def command_asgn : NT := 10
def command_rhs : NT := 11
def expr : NT := 12
def def_name : NT := 13
def defn_head : NT := 14
def defs_head : NT := 15
def expr_value : NT := 16
def expr_value_do : NT := 17
def command_call : NT := 18
def block_command : NT := 19
def cmd_brace_block : NT := 20
def fcall : NT := 21
def command : NT := 22
def mlhs : NT := 23
def mlhs_inner : NT := 24
def mlhs_basic : NT := 25
def mlhs_item : NT := 26
def mlhs_head : NT := 27
def mlhs_post : NT := 28
def mlhs_node : NT := 29
def lhs : NT := 30
def cname : NT := 31
def cpath : NT := 32
def fname : NT := 33
def fitem : NT := 34
def undef_list : NT := 35
def op : NT := 36
def reswords : NT := 37
def arg : NT := 38
def relop : NT := 39
def rel_expr : NT := 40
def arg_value : NT := 41
def aref_args : NT := 42
def arg_rhs : NT := 43
def paren_args : NT := 44
def opt_paren_args : NT := 45
def opt_call_args : NT := 46
def call_args : NT := 47
def command_args : NT := 48
def block_arg : NT := 49
def opt_block_arg : NT := 50
def args : NT := 51
def mrhs_arg : NT := 52
def mrhs : NT := 53
def primary : NT := 54
def primary_value : NT := 55
def k_begin : NT := 56
def k_if : NT := 57
def k_unless : NT := 58
def k_while : NT := 59
def k_until : NT := 60
def k_case : NT := 61
def k_for : NT := 62
def k_class : NT := 63
def k_module : NT := 64
def k_def : NT := 65
def k_do : NT := 66
def k_do_block : NT := 67
def k_rescue : NT := 68
def k_ensure : NT := 69
def k_when : NT := 70
def k_else : NT := 71
def k_elsif : NT := 72
def k_end : NT := 73
def k_return : NT := 74
def «then» : NT := 75
def «do» : NT := 76
def if_tail : NT := 77
def opt_else : NT := 78
def for_var : NT := 79
def f_marg : NT := 80
def f_marg_list : NT := 81
def f_margs : NT := 82
def f_rest_marg : NT := 83
def f_any_kwrest : NT := 84
def f_eq : NT := 85
def block_args_tail : NT := 86
def opt_block_args_tail : NT := 87
def excessed_comma : NT := 88
def block_param : NT := 89
def opt_block_param : NT := 90
def block_param_def : NT := 91
def opt_bv_decl : NT := 92
def bv_decls : NT := 93
def bvar : NT := 94
def lambda : NT := 95
def f_larglist : NT := 96
def lambda_body : NT := 97
def do_block : NT := 98
def block_call : NT := 99
def method_call : NT := 100
def brace_block : NT := 101
def brace_body : NT := 102
def do_body : NT := 103
def case_args : NT := 104
def case_body : NT := 105
def cases : NT := 106
def p_case_body : NT := 107
def p_cases : NT := 108
def p_top_expr : NT := 109
def p_top_expr_body : NT := 110
def p_expr : NT := 111
def p_as : NT := 112
def p_alt : NT := 113
def p_lparen : NT := 114
def p_lbracket : NT := 115
def p_expr_basic : NT := 116
def p_args : NT := 117
def p_args_head : NT := 118
def p_args_tail : NT := 119
def p_find : NT := 120
def p_rest : NT := 121
def p_args_post : NT := 122
def p_arg : NT := 123
def p_kwargs : NT := 124
def p_kwarg : NT := 125
def p_kw : NT := 126
def p_kw_label : NT := 127
def p_kwrest : NT := 128
def p_kwnorest : NT := 129
def p_any_kwrest : NT := 130
def p_value : NT := 131
def p_primitive : NT := 132
def p_variable : NT := 133
def p_var_ref : NT := 134
def p_expr_ref : NT := 135
def p_const : NT := 136
def opt_rescue : NT := 137
def exc_list : NT := 138
def exc_var : NT := 139
def opt_ensure : NT := 140
def literal : NT := 141
def strings : NT := 142
def string : NT := 143
def string1 : NT := 144
def xstring : NT := 145
def regexp : NT := 146
def words : NT := 147
def word_list : NT := 148
def word : NT := 149
def symbols : NT := 150
def symbol_list : NT := 151
def qwords : NT := 152
def qsymbols : NT := 153
def qword_list : NT := 154
def qsym_list : NT := 155
def string_contents : NT := 156
def xstring_contents : NT := 157
def regexp_contents : NT := 158
def string_content : NT := 159
def string_dvar : NT := 160
def symbol : NT := 161
def ssym : NT := 162
def sym : NT := 163
def dsym : NT := 164
def numeric : NT := 165
def simple_numeric : NT := 166
def nonlocal_var : NT := 167
def user_variable : NT := 168
def keyword_variable : NT := 169
def var_ref : NT := 170
def var_lhs : NT := 171
def backref : NT := 172
def superclass : NT := 173
def f_opt_paren_args : NT := 174
def f_paren_args : NT := 175
def f_arglist : NT := 176
def args_tail : NT := 177
def opt_args_tail : NT := 178
def f_args : NT := 179
def args_forward : NT := 180
def f_bad_arg : NT := 181
def f_norm_arg : NT := 182
def f_arg_asgn : NT := 183
def f_arg_item : NT := 184
def f_arg : NT := 185
def f_label : NT := 186
def f_kw : NT := 187
def f_block_kw : NT := 188
def f_block_kwarg : NT := 189
def f_kwarg : NT := 190
def kwrest_mark : NT := 191
def f_no_kwarg : NT := 192
def f_kwrest : NT := 193
def f_opt : NT := 194
def f_block_opt : NT := 195
def f_block_optarg : NT := 196
def f_optarg : NT := 197
def restarg_mark : NT := 198
def f_rest_arg : NT := 199
def blkarg_mark : NT := 200
def f_block_arg : NT := 201
def opt_f_block_arg : NT := 202
def singleton : NT := 203
def assoc_list : NT := 204
def assocs : NT := 205
def assoc : NT := 206
def operation : NT := 207
def operation2 : NT := 208
def operation3 : NT := 209
def dot_or_colon : NT := 210
def call_op : NT := 211
def call_op2 : NT := 212
def opt_terms : NT := 213
def opt_nl : NT := 214
def rparen : NT := 215
def rbracket : NT := 216
def rbrace : NT := 217
def trailer : NT := 218
def term : NT := 219
def terms : NT := 220
def none : NT := 221
end NT

/-- src/parser/parse.y:346-757. -/
def rules0 : List Rule := [
  ⟨NT.program, 346, [.a ⟨346, false, [], [.argPush, .numPush true], [.new .None]⟩, .n NT.top_compstmt, .a ⟨354, false, [(.MaybeNode, 2)], [.argPop, .numPop], [.new .None]⟩]⟩,
  ⟨NT.top_compstmt, 364, [.n NT.top_stmts, .n NT.opt_terms, .a ⟨365, false, [(.NodeList, 1)], [], [.new .MaybeNode]⟩]⟩,
  ⟨NT.top_stmts, 373, [.n NT.none, .a ⟨374, false, [], [], [.new .NodeList]⟩]⟩,
  ⟨NT.top_stmts, 377, [.n NT.top_stmt, .a ⟨378, false, [(.Node, 1)], [], [.new .NodeList]⟩]⟩,
  ⟨NT.top_stmts, 381, [.n NT.top_stmts, .n NT.terms, .n NT.top_stmt, .a ⟨382, false, [(.BoxedNodeList, 1), (.Node, 3)], [], [.new .NodeList]⟩]⟩,
  ⟨NT.top_stmts, 387, [.err, .n NT.top_stmt, .a ⟨388, false, [(.Node, 2)], [], [.new .NodeList]⟩]⟩,
  ⟨NT.top_stmt, 393, [.n NT.stmt, .a ⟨394, false, [(.raw, 1)], [], [.copy 1]⟩]⟩,
  ⟨NT.top_stmt, 397, [.t .klBEGIN, .n NT.begin_block, .a ⟨398, false, [(.BeginBlock, 2), (.Token, 1)], [], [.new .Node]⟩]⟩,
  ⟨NT.begin_block, 406, [.t .tLCURLY, .n NT.top_compstmt, .t .tRCURLY, .a ⟨407, false, [(.Token, 1), (.MaybeBoxedNode, 2), (.Token, 3)], [], [.new .BeginBlock]⟩]⟩,
  ⟨NT.bodystmt, 418, [.n NT.compstmt, .n NT.opt_rescue, .n NT.k_else, .n NT.compstmt, .n NT.opt_ensure, .a ⟨422, false, [(.MaybeBoxedNode, 1), (.NodeList, 2), (.Token, 3), (.MaybeBoxedNode, 4), (.OptEnsure, 5)], [], [.new .MaybeNode]⟩]⟩,
  ⟨NT.bodystmt, 441, [.n NT.compstmt, .n NT.opt_rescue, .n NT.opt_ensure, .a ⟨444, false, [(.MaybeBoxedNode, 1), (.NodeList, 2), (.OptEnsure, 3)], [], [.new .MaybeNode]⟩]⟩,
  ⟨NT.compstmt, 460, [.n NT.stmts, .n NT.opt_terms, .a ⟨461, false, [(.NodeList, 1)], [], [.new .MaybeNode]⟩]⟩,
  ⟨NT.stmts, 469, [.n NT.none, .a ⟨470, false, [], [], [.new .NodeList]⟩]⟩,
  ⟨NT.stmts, 473, [.n NT.stmt_or_begin, .a ⟨474, false, [(.Node, 1)], [], [.new .NodeList]⟩]⟩,
  ⟨NT.stmts, 477, [.n NT.stmts, .n NT.terms, .n NT.stmt_or_begin, .a ⟨478, false, [(.BoxedNodeList, 1), (.Node, 3)], [], [.new .NodeList]⟩]⟩,
  ⟨NT.stmts, 483, [.err, .a ⟨484, false, [], [], [.new .NodeList]⟩]⟩,
  ⟨NT.stmt_or_begin, 489, [.n NT.stmt, .a ⟨490, false, [(.raw, 1)], [], [.copy 1]⟩]⟩,
  ⟨NT.stmt_or_begin, 493, [.t .klBEGIN, .a ⟨494, true, [], [], []⟩, .n NT.begin_block, .a ⟨498, false, [], [], [.new .None]⟩]⟩,
  ⟨NT.stmt, 503, [.t .kALIAS, .n NT.fitem, .a ⟨504, false, [], [], [.new .None]⟩, .n NT.fitem, .a ⟨509, false, [(.Token, 1), (.BoxedNode, 2), (.BoxedNode, 4)], [], [.new .Node]⟩]⟩,
  ⟨NT.stmt, 514, [.t .kALIAS, .t .tGVAR, .t .tGVAR, .a ⟨515, false, [(.Token, 1), (.Token, 2), (.Token, 3)], [], [.new .Node]⟩]⟩,
  ⟨NT.stmt, 524, [.t .kALIAS, .t .tGVAR, .t .tBACK_REF, .a ⟨525, false, [(.Token, 1), (.Token, 2), (.Token, 3)], [], [.new .Node]⟩]⟩,
  ⟨NT.stmt, 534, [.t .kALIAS, .t .tGVAR, .t .tNTH_REF, .a ⟨535, true, [], [], []⟩]⟩,
  ⟨NT.stmt, 538, [.t .kUNDEF, .n NT.undef_list, .a ⟨539, false, [(.Token, 1), (.NodeList, 2)], [], [.new .Node]⟩]⟩,
  ⟨NT.stmt, 547, [.n NT.stmt, .t .kIF_MOD, .n NT.expr_value, .a ⟨548, false, [(.BoxedNode, 1), (.Token, 2), (.BoxedNode, 3)], [], [.new .Node]⟩]⟩,
  ⟨NT.stmt, 558, [.n NT.stmt, .t .kUNLESS_MOD, .n NT.expr_value, .a ⟨559, false, [(.BoxedNode, 1), (.Token, 2), (.BoxedNode, 3)], [], [.new .Node]⟩]⟩,
  ⟨NT.stmt, 569, [.n NT.stmt, .t .kWHILE_MOD, .n NT.expr_value, .a ⟨570, false, [(.BoxedNode, 1), (.Token, 2), (.BoxedNode, 3)], [], [.new .Node]⟩]⟩,
  ⟨NT.stmt, 580, [.n NT.stmt, .t .kUNTIL_MOD, .n NT.expr_value, .a ⟨581, false, [(.BoxedNode, 1), (.Token, 2), (.BoxedNode, 3)], [], [.new .Node]⟩]⟩,
  ⟨NT.stmt, 591, [.n NT.stmt, .t .kRESCUE_MOD, .n NT.stmt, .a ⟨592, false, [(.Token, 2), (.BoxedNode, 3), (.BoxedNode, 1)], [], [.new .Node]⟩]⟩,
  ⟨NT.stmt, 611, [.t .klEND, .t .tLCURLY, .n NT.compstmt, .t .tRCURLY, .a ⟨612, false, [(.Token, 1), (.Token, 2), (.MaybeBoxedNode, 3), (.Token, 4)], [], [.new .Node]⟩]⟩,
  ⟨NT.stmt, 626, [.n NT.command_asgn, .a ⟨627, false, [(.raw, 1)], [], [.copy 1]⟩]⟩,
  ⟨NT.stmt, 630, [.n NT.mlhs, .t .tEQL, .n NT.command_call, .a ⟨631, false, [(.BoxedNode, 3), (.BoxedNode, 1), (.Token, 2)], [], [.new .Node]⟩]⟩,
  ⟨NT.stmt, 643, [.n NT.lhs, .t .tEQL, .n NT.mrhs, .a ⟨644, false, [(.NodeList, 3), (.BoxedNode, 1), (.Token, 2)], [], [.new .Node]⟩]⟩,
  ⟨NT.stmt, 660, [.n NT.mlhs, .t .tEQL, .n NT.mrhs_arg, .t .kRESCUE_MOD, .n NT.stmt, .a ⟨661, false, [(.Token, 4), (.BoxedNode, 5), (.BoxedNode, 3), (.BoxedNode, 1), (.Token, 2)], [], [.new .Node]⟩]⟩,
  ⟨NT.stmt, 689, [.n NT.mlhs, .t .tEQL, .n NT.mrhs_arg, .a ⟨690, false, [(.BoxedNode, 1), (.Token, 2), (.BoxedNode, 3)], [], [.new .Node]⟩]⟩,
  ⟨NT.stmt, 699, [.n NT.expr, .a ⟨700, false, [(.raw, 1)], [], [.copy 1]⟩]⟩,
  ⟨NT.command_asgn, 705, [.n NT.lhs, .t .tEQL, .n NT.command_rhs, .a ⟨706, false, [(.BoxedNode, 1), (.Token, 2), (.BoxedNode, 3)], [], [.new .Node]⟩]⟩,
  ⟨NT.command_asgn, 715, [.n NT.var_lhs, .t .tOP_ASGN, .n NT.command_rhs, .a ⟨716, false, [(.BoxedNode, 1), (.Token, 2), (.BoxedNode, 3)], [], [.new .Node]⟩]⟩,
  ⟨NT.command_asgn, 725, [.n NT.primary_value, .t .tLBRACK2, .n NT.opt_call_args, .n NT.rbracket, .t .tOP_ASGN, .n NT.command_rhs, .a ⟨726, false, [(.BoxedNode, 1), (.Token, 2), (.NodeList, 3), (.Token, 4), (.Token, 5), (.BoxedNode, 6)], [], [.new .Node]⟩]⟩,
  ⟨NT.command_asgn, 740, [.n NT.primary_value, .n NT.call_op, .t .tIDENTIFIER, .t .tOP_ASGN, .n NT.command_rhs, .a ⟨741, false, [(.BoxedNode, 1), (.Token, 2), (.Token, 3), (.Token, 4), (.BoxedNode, 5)], [], [.new .Node]⟩]⟩,
  ⟨NT.command_asgn, 757, [.n NT.primary_value, .n NT.call_op, .t .tCONSTANT, .t .tOP_ASGN, .n NT.command_rhs, .a ⟨758, false, [(.BoxedNode, 1), (.Token, 2), (.Token, 3), (.Token, 4), (.BoxedNode, 5)], [], [.new .Node]⟩]⟩
]

/-- src/parser/parse.y:774-1369. -/
def rules1 : List Rule := [
  ⟨NT.command_asgn, 774, [.n NT.primary_value, .t .tCOLON2, .t .tCONSTANT, .t .tOP_ASGN, .n NT.command_rhs, .a ⟨775, false, [(.BoxedNode, 1), (.Token, 2), (.Token, 3), (.Token, 4), (.BoxedNode, 5)], [], [.new .Node]⟩]⟩,
  ⟨NT.command_asgn, 791, [.n NT.primary_value, .t .tCOLON2, .t .tIDENTIFIER, .t .tOP_ASGN, .n NT.command_rhs, .a ⟨792, false, [(.BoxedNode, 1), (.Token, 2), (.Token, 3), (.Token, 4), (.BoxedNode, 5)], [], [.new .Node]⟩]⟩,
  ⟨NT.command_asgn, 808, [.n NT.defn_head, .n NT.f_opt_paren_args, .t .tEQL, .n NT.command, .a ⟨809, false, [(.DefnHead, 1), (.MaybeBoxedNode, 2), (.Token, 3), (.BoxedNode, 4)], [.envPop, .cmdPop, .condPop, .numPop, .argPop, .restore .inDef 1], [.new .Node]⟩]⟩,
  ⟨NT.command_asgn, 828, [.n NT.defn_head, .n NT.f_opt_paren_args, .t .tEQL, .n NT.command, .t .kRESCUE_MOD, .n NT.arg, .a ⟨829, false, [(.DefnHead, 1), (.Token, 5), (.BoxedNode, 6), (.BoxedNode, 4), (.MaybeBoxedNode, 2), (.Token, 3)], [.envPop, .cmdPop, .condPop, .numPop, .argPop, .restore .inDef 1], [.new .Node]⟩]⟩,
  ⟨NT.command_asgn, 864, [.n NT.defs_head, .n NT.f_opt_paren_args, .t .tEQL, .n NT.command, .a ⟨865, false, [(.DefsHead, 1), (.MaybeBoxedNode, 2), (.Token, 3), (.BoxedNode, 4)], [.envPop, .cmdPop, .condPop, .numPop, .argPop, .restore .inDef 1], [.new .Node]⟩]⟩,
  ⟨NT.command_asgn, 886, [.n NT.defs_head, .n NT.f_opt_paren_args, .t .tEQL, .n NT.command, .t .kRESCUE_MOD, .n NT.arg, .a ⟨887, false, [(.DefsHead, 1), (.Token, 5), (.BoxedNode, 6), (.BoxedNode, 4), (.MaybeBoxedNode, 2), (.Token, 3)], [.envPop, .cmdPop, .condPop, .numPop, .argPop, .restore .inDef 1], [.new .Node]⟩]⟩,
  ⟨NT.command_asgn, 924, [.n NT.backref, .t .tOP_ASGN, .n NT.command_rhs, .a ⟨925, false, [(.BoxedNode, 1), (.Token, 2), (.BoxedNode, 3)], [], [.new .Node]⟩]⟩,
  ⟨NT.command_rhs, 936, [.n NT.command_call, .a ⟨937, false, [(.BoxedNode, 1)], [], [.new .Node]⟩]⟩,
  ⟨NT.command_rhs, 942, [.n NT.command_call, .t .kRESCUE_MOD, .n NT.stmt, .a ⟨943, false, [(.BoxedNode, 1), (.Token, 2), (.BoxedNode, 3)], [], [.new .Node]⟩]⟩,
  ⟨NT.command_rhs, 965, [.n NT.command_asgn, .a ⟨966, false, [(.raw, 1)], [], [.copy 1]⟩]⟩,
  ⟨NT.expr, 971, [.n NT.command_call, .a ⟨972, false, [(.raw, 1)], [], [.copy 1]⟩]⟩,
  ⟨NT.expr, 975, [.n NT.expr, .t .kAND, .n NT.expr, .a ⟨976, false, [(.BoxedNode, 1), (.Token, 2), (.BoxedNode, 3)], [], [.new .Node]⟩]⟩,
  ⟨NT.expr, 986, [.n NT.expr, .t .kOR, .n NT.expr, .a ⟨987, false, [(.BoxedNode, 1), (.Token, 2), (.BoxedNode, 3)], [], [.new .Node]⟩]⟩,
  ⟨NT.expr, 997, [.t .kNOT, .n NT.opt_nl, .n NT.expr, .a ⟨998, false, [(.Token, 1), (.BoxedNode, 3)], [], [.new .Node]⟩]⟩,
  ⟨NT.expr, 1008, [.t .tBANG, .n NT.command_call, .a ⟨1009, false, [(.Token, 1), (.BoxedNode, 2)], [], [.new .Node]⟩]⟩,
  ⟨NT.expr, 1019, [.n NT.arg, .t .tASSOC, .a ⟨1020, false, [(.peekNode, 1)], [.pvPush, .pkPush, .saveBool .inKwarg, .flag .inKwarg true], [.new .Bool]⟩, .n NT.p_top_expr_body, .a ⟨1036, false, [(.Bool, 3), (.BoxedNode, 1), (.Token, 2), (.BoxedNode, 4)], [.pvPop, .pkPop, .restore .inKwarg 3], [.new .Node]⟩]⟩,
  ⟨NT.expr, 1049, [.n NT.arg, .t .kIN, .a ⟨1050, false, [(.peekNode, 1)], [.pvPush, .pkPush, .saveBool .inKwarg, .flag .inKwarg true], [.new .Bool]⟩, .n NT.p_top_expr_body, .a ⟨1066, false, [(.Bool, 3), (.BoxedNode, 1), (.Token, 2), (.BoxedNode, 4)], [.pvPop, .pkPop, .restore .inKwarg 3], [.new .Node]⟩]⟩,
  ⟨NT.expr, 1079, [.n NT.arg, .a ⟨1080, false, [(.raw, 1)], [], [.copy 1]⟩]⟩,
  ⟨NT.def_name, 1085, [.n NT.fname, .a ⟨1086, false, [(.Token, 1)], [.envStatic, .cmdPush false, .condPush false, .numPush true, .argPush, .dump, .flag .inDef true], [.new .TokenWithContext]⟩]⟩,
  ⟨NT.defn_head, 1103, [.n NT.k_def, .n NT.def_name, .a ⟨1104, false, [(.Token, 1), (.TokenWithContext, 2)], [.carry 2], [.new .DefnHead]⟩]⟩,
  ⟨NT.defs_head, 1114, [.n NT.k_def, .n NT.singleton, .n NT.dot_or_colon, .a ⟨1115, false, [], [.flag .inArgdef true], [.new .None]⟩, .n NT.def_name, .a ⟨1121, false, [(.Token, 1), (.BoxedNode, 2), (.Token, 3), (.TokenWithContext, 5)], [.carry 5], [.new .DefsHead]⟩]⟩,
  ⟨NT.expr_value, 1135, [.n NT.expr, .a ⟨1136, false, [(.BoxedNode, 1)], [], [.new .Node]⟩]⟩,
  ⟨NT.expr_value_do, 1143, [.a ⟨1143, false, [], [.condPush true], [.new .None]⟩, .n NT.expr_value, .n NT.«do», .a ⟨1148, false, [(.BoxedNode, 2), (.Token, 3)], [.condPop], [.new .ExprValueDo]⟩]⟩,
  ⟨NT.command_call, 1161, [.n NT.command, .a ⟨1162, false, [(.raw, 1)], [], [.copy 1]⟩]⟩,
  ⟨NT.command_call, 1165, [.n NT.block_command, .a ⟨1166, false, [(.raw, 1)], [], [.copy 1]⟩]⟩,
  ⟨NT.block_command, 1171, [.n NT.block_call, .a ⟨1172, false, [(.raw, 1)], [], [.copy 1]⟩]⟩,
  ⟨NT.block_command, 1175, [.n NT.block_call, .n NT.call_op2, .n NT.operation2, .n NT.command_args, .a ⟨1176, false, [(.BoxedNode, 1), (.Token, 2), (.Token, 3), (.NodeList, 4)], [], [.new .Node]⟩]⟩,
  ⟨NT.cmd_brace_block, 1190, [.t .tLBRACE_ARG, .a ⟨1191, false, [], [.dump, .flag .inBlock true], [.new .Context]⟩, .n NT.brace_body, .t .tRCURLY, .a ⟨1196, false, [(.Context, 2), (.BraceBody, 3), (.Token, 1), (.Token, 4)], [.restore .inBlock 2], [.new .CmdBraceBlock]⟩]⟩,
  ⟨NT.fcall, 1210, [.n NT.operation, .a ⟨1211, false, [(.raw, 1)], [], [.copy 1]⟩]⟩,
  ⟨NT.command, 1216, [.n NT.fcall, .n NT.command_args, .a ⟨1217, false, [(.Token, 1), (.NodeList, 2)], [], [.new .Node]⟩]⟩,
  ⟨NT.command, 1229, [.n NT.fcall, .n NT.command_args, .n NT.cmd_brace_block, .a ⟨1230, false, [(.Token, 1), (.NodeList, 2), (.CmdBraceBlock, 3)], [], [.new .Node]⟩]⟩,
  ⟨NT.command, 1251, [.n NT.primary_value, .n NT.call_op, .n NT.operation2, .n NT.command_args, .a ⟨1252, false, [(.BoxedNode, 1), (.Token, 2), (.Token, 3), (.NodeList, 4)], [], [.new .Node]⟩]⟩,
  ⟨NT.command, 1264, [.n NT.primary_value, .n NT.call_op, .n NT.operation2, .n NT.command_args, .n NT.cmd_brace_block, .a ⟨1265, false, [(.BoxedNode, 1), (.Token, 2), (.Token, 3), (.NodeList, 4), (.CmdBraceBlock, 5)], [], [.new .Node]⟩]⟩,
  ⟨NT.command, 1286, [.n NT.primary_value, .t .tCOLON2, .n NT.operation2, .n NT.command_args, .a ⟨1287, false, [(.BoxedNode, 1), (.Token, 2), (.Token, 3), (.NodeList, 4)], [], [.new .Node]⟩]⟩,
  ⟨NT.command, 1299, [.n NT.primary_value, .t .tCOLON2, .n NT.operation2, .n NT.command_args, .n NT.cmd_brace_block, .a ⟨1300, false, [(.BoxedNode, 1), (.Token, 2), (.Token, 3), (.NodeList, 4), (.CmdBraceBlock, 5)], [], [.new .Node]⟩]⟩,
  ⟨NT.command, 1321, [.t .kSUPER, .n NT.command_args, .a ⟨1322, false, [(.Token, 1), (.NodeList, 2)], [], [.new .Node]⟩]⟩,
  ⟨NT.command, 1333, [.t .kYIELD, .n NT.command_args, .a ⟨1334, false, [(.Token, 1), (.NodeList, 2)], [], [.new .Node]⟩]⟩,
  ⟨NT.command, 1345, [.n NT.k_return, .n NT.call_args, .a ⟨1346, false, [(.Token, 1), (.NodeList, 2)], [], [.new .Node]⟩]⟩,
  ⟨NT.command, 1357, [.t .kBREAK, .n NT.call_args, .a ⟨1358, false, [(.Token, 1), (.NodeList, 2)], [], [.new .Node]⟩]⟩,
  ⟨NT.command, 1369, [.t .kNEXT, .n NT.call_args, .a ⟨1370, false, [(.Token, 1), (.NodeList, 2)], [], [.new .Node]⟩]⟩
]

/-- src/parser/parse.y:1383-1761. -/
def rules2 : List Rule := [
  ⟨NT.mlhs, 1383, [.n NT.mlhs_basic, .a ⟨1384, false, [(.NodeList, 1)], [], [.new .Node]⟩]⟩,
  ⟨NT.mlhs, 1393, [.t .tLPAREN, .n NT.mlhs_inner, .n NT.rparen, .a ⟨1394, false, [(.Token, 1), (.BoxedNode, 2), (.Token, 3)], [], [.new .Node]⟩]⟩,
  ⟨NT.mlhs_inner, 1405, [.n NT.mlhs_basic, .a ⟨1406, false, [(.NodeList, 1)], [], [.new .Node]⟩]⟩,
  ⟨NT.mlhs_inner, 1415, [.t .tLPAREN, .n NT.mlhs_inner, .n NT.rparen, .a ⟨1416, false, [(.Node, 2), (.Token, 1), (.Token, 3)], [], [.new .Node]⟩]⟩,
  ⟨NT.mlhs_basic, 1437, [.n NT.mlhs_head, .a ⟨1438, false, [(.raw, 1)], [], [.copy 1]⟩]⟩,
  ⟨NT.mlhs_basic, 1441, [.n NT.mlhs_head, .n NT.mlhs_item, .a ⟨1442, false, [(.BoxedNodeList, 1), (.Node, 2)], [], [.new .NodeList]⟩]⟩,
  ⟨NT.mlhs_basic, 1447, [.n NT.mlhs_head, .t .tSTAR, .n NT.mlhs_node, .a ⟨1448, false, [(.BoxedNodeList, 1), (.Token, 2), (.BoxedNode, 3)], [], [.new .NodeList]⟩]⟩,
  ⟨NT.mlhs_basic, 1454, [.n NT.mlhs_head, .t .tSTAR, .n NT.mlhs_node, .t .tCOMMA, .n NT.mlhs_post, .a ⟨1455, false, [(.BoxedNodeList, 1), (.Token, 2), (.BoxedNode, 3), (.NodeList, 5)], [], [.new .NodeList]⟩]⟩,
  ⟨NT.mlhs_basic, 1466, [.n NT.mlhs_head, .t .tSTAR, .a ⟨1467, false, [(.BoxedNodeList, 1), (.Token, 2)], [], [.new .NodeList]⟩]⟩,
  ⟨NT.mlhs_basic, 1473, [.n NT.mlhs_head, .t .tSTAR, .t .tCOMMA, .n NT.mlhs_post, .a ⟨1474, false, [(.BoxedNodeList, 1), (.Token, 2), (.NodeList, 4)], [], [.new .NodeList]⟩]⟩,
  ⟨NT.mlhs_basic, 1485, [.t .tSTAR, .n NT.mlhs_node, .a ⟨1486, false, [(.Token, 1), (.BoxedNode, 2)], [], [.new .NodeList]⟩]⟩,
  ⟨NT.mlhs_basic, 1498, [.t .tSTAR, .n NT.mlhs_node, .t .tCOMMA, .n NT.mlhs_post, .a ⟨1499, false, [(.Token, 1), (.BoxedNode, 2), (.NodeList, 4)], [], [.new .NodeList]⟩]⟩,
  ⟨NT.mlhs_basic, 1509, [.t .tSTAR, .a ⟨1510, false, [(.Token, 1)], [], [.new .NodeList]⟩]⟩,
  ⟨NT.mlhs_basic, 1522, [.t .tSTAR, .t .tCOMMA, .n NT.mlhs_post, .a ⟨1523, false, [(.Token, 1), (.NodeList, 3)], [], [.new .NodeList]⟩]⟩,
  ⟨NT.mlhs_item, 1535, [.n NT.mlhs_node, .a ⟨1536, false, [(.raw, 1)], [], [.copy 1]⟩]⟩,
  ⟨NT.mlhs_item, 1539, [.t .tLPAREN, .n NT.mlhs_inner, .n NT.rparen, .a ⟨1540, false, [(.Token, 1), (.BoxedNode, 2), (.Token, 3)], [], [.new .Node]⟩]⟩,
  ⟨NT.mlhs_head, 1551, [.n NT.mlhs_item, .t .tCOMMA, .a ⟨1552, false, [(.Node, 1)], [], [.new .NodeList]⟩]⟩,
  ⟨NT.mlhs_head, 1555, [.n NT.mlhs_head, .n NT.mlhs_item, .t .tCOMMA, .a ⟨1556, false, [(.BoxedNodeList, 1), (.Node, 2)], [], [.new .NodeList]⟩]⟩,
  ⟨NT.mlhs_post, 1563, [.n NT.mlhs_item, .a ⟨1564, false, [(.Node, 1)], [], [.new .NodeList]⟩]⟩,
  ⟨NT.mlhs_post, 1567, [.n NT.mlhs_post, .t .tCOMMA, .n NT.mlhs_item, .a ⟨1568, false, [(.BoxedNodeList, 1), (.Node, 3)], [], [.new .NodeList]⟩]⟩,
  ⟨NT.mlhs_node, 1575, [.n NT.user_variable, .a ⟨1576, false, [(.BoxedNode, 1)], [.touch [.env]], [.new .Node]⟩]⟩,
  ⟨NT.mlhs_node, 1581, [.n NT.keyword_variable, .a ⟨1582, false, [(.BoxedNode, 1)], [.touch [.env]], [.new .Node]⟩]⟩,
  ⟨NT.mlhs_node, 1587, [.n NT.primary_value, .t .tLBRACK2, .n NT.opt_call_args, .n NT.rbracket, .a ⟨1588, false, [(.BoxedNode, 1), (.Token, 2), (.NodeList, 3), (.Token, 4)], [], [.new .Node]⟩]⟩,
  ⟨NT.mlhs_node, 1598, [.n NT.primary_value, .n NT.call_op, .t .tIDENTIFIER, .a ⟨1599, false, [(.Token, 2), (.BoxedNode, 1), (.Token, 3)], [], [.new .Node]⟩]⟩,
  ⟨NT.mlhs_node, 1613, [.n NT.primary_value, .t .tCOLON2, .t .tIDENTIFIER, .a ⟨1614, false, [(.BoxedNode, 1), (.Token, 2), (.Token, 3)], [], [.new .Node]⟩]⟩,
  ⟨NT.mlhs_node, 1623, [.n NT.primary_value, .n NT.call_op, .t .tCONSTANT, .a ⟨1624, false, [(.Token, 2), (.BoxedNode, 1), (.Token, 3)], [], [.new .Node]⟩]⟩,
  ⟨NT.mlhs_node, 1638, [.n NT.primary_value, .t .tCOLON2, .t .tCONSTANT, .a ⟨1639, false, [(.BoxedNode, 1), (.Token, 2), (.Token, 3)], [.touch [.env]], [.new .Node]⟩]⟩,
  ⟨NT.mlhs_node, 1650, [.t .tCOLON3, .t .tCONSTANT, .a ⟨1651, false, [(.Token, 1), (.Token, 2)], [.touch [.env]], [.new .Node]⟩]⟩,
  ⟨NT.mlhs_node, 1661, [.n NT.backref, .a ⟨1662, false, [(.BoxedNode, 1)], [.touch [.env]], [.new .Node]⟩]⟩,
  ⟨NT.lhs, 1671, [.n NT.user_variable, .a ⟨1672, false, [(.BoxedNode, 1)], [.touch [.env]], [.new .Node]⟩]⟩,
  ⟨NT.lhs, 1677, [.n NT.keyword_variable, .a ⟨1678, false, [(.BoxedNode, 1)], [.touch [.env]], [.new .Node]⟩]⟩,
  ⟨NT.lhs, 1683, [.n NT.primary_value, .t .tLBRACK2, .n NT.opt_call_args, .n NT.rbracket, .a ⟨1684, false, [(.BoxedNode, 1), (.Token, 2), (.NodeList, 3), (.Token, 4)], [], [.new .Node]⟩]⟩,
  ⟨NT.lhs, 1694, [.n NT.primary_value, .n NT.call_op, .t .tIDENTIFIER, .a ⟨1695, false, [(.BoxedNode, 1), (.Token, 2), (.Token, 3)], [], [.new .Node]⟩]⟩,
  ⟨NT.lhs, 1704, [.n NT.primary_value, .t .tCOLON2, .t .tIDENTIFIER, .a ⟨1705, false, [(.BoxedNode, 1), (.Token, 2), (.Token, 3)], [], [.new .Node]⟩]⟩,
  ⟨NT.lhs, 1714, [.n NT.primary_value, .n NT.call_op, .t .tCONSTANT, .a ⟨1715, false, [(.BoxedNode, 1), (.Token, 2), (.Token, 3)], [], [.new .Node]⟩]⟩,
  ⟨NT.lhs, 1724, [.n NT.primary_value, .t .tCOLON2, .t .tCONSTANT, .a ⟨1725, false, [(.BoxedNode, 1), (.Token, 2), (.Token, 3)], [.touch [.env]], [.new .Node]⟩]⟩,
  ⟨NT.lhs, 1736, [.t .tCOLON3, .t .tCONSTANT, .a ⟨1737, false, [(.Token, 1), (.Token, 2)], [.touch [.env]], [.new .Node]⟩]⟩,
  ⟨NT.lhs, 1747, [.n NT.backref, .a ⟨1748, false, [(.BoxedNode, 1)], [.touch [.env]], [.new .Node]⟩]⟩,
  ⟨NT.cname, 1757, [.t .tIDENTIFIER, .a ⟨1758, true, [], [], []⟩]⟩,
  ⟨NT.cname, 1761, [.t .tCONSTANT, .a ⟨1762, false, [(.raw, 1)], [], [.copy 1]⟩]⟩
]

/-- src/parser/parse.y:1767-1870. -/
def rules3 : List Rule := [
  ⟨NT.cpath, 1767, [.t .tCOLON3, .n NT.cname, .a ⟨1768, false, [(.Token, 1), (.Token, 2)], [], [.new .Node]⟩]⟩,
  ⟨NT.cpath, 1773, [.n NT.cname, .a ⟨1774, false, [(.Token, 1)], [], [.new .Node]⟩]⟩,
  ⟨NT.cpath, 1779, [.n NT.primary_value, .t .tCOLON2, .n NT.cname, .a ⟨1780, false, [(.BoxedNode, 1), (.Token, 2), (.Token, 3)], [], [.new .Node]⟩]⟩,
  ⟨NT.fname, 1791, [.t .tIDENTIFIER, .a ⟨1792, false, [(.raw, 1)], [], [.copy 1]⟩]⟩,
  ⟨NT.fname, 1795, [.t .tCONSTANT, .a ⟨1796, false, [(.raw, 1)], [], [.copy 1]⟩]⟩,
  ⟨NT.fname, 1799, [.t .tFID, .a ⟨1800, false, [(.raw, 1)], [], [.copy 1]⟩]⟩,
  ⟨NT.fname, 1803, [.n NT.op, .a ⟨1804, false, [(.raw, 1)], [], [.copy 1]⟩]⟩,
  ⟨NT.fname, 1808, [.n NT.reswords, .a ⟨1809, false, [(.raw, 1)], [], [.copy 1]⟩]⟩,
  ⟨NT.fitem, 1814, [.n NT.fname, .a ⟨1815, false, [(.Token, 1)], [], [.new .Node]⟩]⟩,
  ⟨NT.fitem, 1820, [.n NT.symbol, .a ⟨1821, false, [(.raw, 1)], [], [.copy 1]⟩]⟩,
  ⟨NT.undef_list, 1826, [.n NT.fitem, .a ⟨1827, false, [(.Node, 1)], [], [.new .NodeList]⟩]⟩,
  ⟨NT.undef_list, 1830, [.n NT.undef_list, .t .tCOMMA, .a ⟨1831, false, [], [], [.new .None]⟩, .n NT.fitem, .a ⟨1836, false, [(.BoxedNodeList, 1), (.Node, 4)], [], [.new .NodeList]⟩]⟩,
  ⟨NT.op, 1843, [.t .tPIPE, .a ⟨1843, false, [(.raw, 1)], [], [.copy 1]⟩]⟩,
  ⟨NT.op, 1844, [.t .tCARET, .a ⟨1844, false, [(.raw, 1)], [], [.copy 1]⟩]⟩,
  ⟨NT.op, 1845, [.t .tAMPER2, .a ⟨1845, false, [(.raw, 1)], [], [.copy 1]⟩]⟩,
  ⟨NT.op, 1846, [.t .tCMP, .a ⟨1846, false, [(.raw, 1)], [], [.copy 1]⟩]⟩,
  ⟨NT.op, 1847, [.t .tEQ, .a ⟨1847, false, [(.raw, 1)], [], [.copy 1]⟩]⟩,
  ⟨NT.op, 1848, [.t .tEQQ, .a ⟨1848, false, [(.raw, 1)], [], [.copy 1]⟩]⟩,
  ⟨NT.op, 1849, [.t .tMATCH, .a ⟨1849, false, [(.raw, 1)], [], [.copy 1]⟩]⟩,
  ⟨NT.op, 1850, [.t .tNMATCH, .a ⟨1850, false, [(.raw, 1)], [], [.copy 1]⟩]⟩,
  ⟨NT.op, 1851, [.t .tGT, .a ⟨1851, false, [(.raw, 1)], [], [.copy 1]⟩]⟩,
  ⟨NT.op, 1852, [.t .tGEQ, .a ⟨1852, false, [(.raw, 1)], [], [.copy 1]⟩]⟩,
  ⟨NT.op, 1853, [.t .tLT, .a ⟨1853, false, [(.raw, 1)], [], [.copy 1]⟩]⟩,
  ⟨NT.op, 1854, [.t .tLEQ, .a ⟨1854, false, [(.raw, 1)], [], [.copy 1]⟩]⟩,
  ⟨NT.op, 1855, [.t .tNEQ, .a ⟨1855, false, [(.raw, 1)], [], [.copy 1]⟩]⟩,
  ⟨NT.op, 1856, [.t .tLSHFT, .a ⟨1856, false, [(.raw, 1)], [], [.copy 1]⟩]⟩,
  ⟨NT.op, 1857, [.t .tRSHFT, .a ⟨1857, false, [(.raw, 1)], [], [.copy 1]⟩]⟩,
  ⟨NT.op, 1858, [.t .tPLUS, .a ⟨1858, false, [(.raw, 1)], [], [.copy 1]⟩]⟩,
  ⟨NT.op, 1859, [.t .tMINUS, .a ⟨1859, false, [(.raw, 1)], [], [.copy 1]⟩]⟩,
  ⟨NT.op, 1860, [.t .tSTAR2, .a ⟨1860, false, [(.raw, 1)], [], [.copy 1]⟩]⟩,
  ⟨NT.op, 1861, [.t .tSTAR, .a ⟨1861, false, [(.raw, 1)], [], [.copy 1]⟩]⟩,
  ⟨NT.op, 1862, [.t .tDIVIDE, .a ⟨1862, false, [(.raw, 1)], [], [.copy 1]⟩]⟩,
  ⟨NT.op, 1863, [.t .tPERCENT, .a ⟨1863, false, [(.raw, 1)], [], [.copy 1]⟩]⟩,
  ⟨NT.op, 1864, [.t .tPOW, .a ⟨1864, false, [(.raw, 1)], [], [.copy 1]⟩]⟩,
  ⟨NT.op, 1865, [.t .tDSTAR, .a ⟨1865, false, [(.raw, 1)], [], [.copy 1]⟩]⟩,
  ⟨NT.op, 1866, [.t .tBANG, .a ⟨1866, false, [(.raw, 1)], [], [.copy 1]⟩]⟩,
  ⟨NT.op, 1867, [.t .tTILDE, .a ⟨1867, false, [(.raw, 1)], [], [.copy 1]⟩]⟩,
  ⟨NT.op, 1868, [.t .tUPLUS, .a ⟨1868, false, [(.raw, 1)], [], [.copy 1]⟩]⟩,
  ⟨NT.op, 1869, [.t .tUMINUS, .a ⟨1869, false, [(.raw, 1)], [], [.copy 1]⟩]⟩,
  ⟨NT.op, 1870, [.t .tAREF, .a ⟨1870, false, [(.raw, 1)], [], [.copy 1]⟩]⟩
]

/-- src/parser/parse.y:1871-1912. -/
def rules4 : List Rule := [
  ⟨NT.op, 1871, [.t .tASET, .a ⟨1871, false, [(.raw, 1)], [], [.copy 1]⟩]⟩,
  ⟨NT.op, 1872, [.t .tBACK_REF2, .a ⟨1872, false, [(.raw, 1)], [], [.copy 1]⟩]⟩,
  ⟨NT.reswords, 1875, [.t .k__LINE__, .a ⟨1875, false, [(.raw, 1)], [], [.copy 1]⟩]⟩,
  ⟨NT.reswords, 1876, [.t .k__FILE__, .a ⟨1876, false, [(.raw, 1)], [], [.copy 1]⟩]⟩,
  ⟨NT.reswords, 1877, [.t .k__ENCODING__, .a ⟨1877, false, [(.raw, 1)], [], [.copy 1]⟩]⟩,
  ⟨NT.reswords, 1878, [.t .klBEGIN, .a ⟨1878, false, [(.raw, 1)], [], [.copy 1]⟩]⟩,
  ⟨NT.reswords, 1879, [.t .klEND, .a ⟨1879, false, [(.raw, 1)], [], [.copy 1]⟩]⟩,
  ⟨NT.reswords, 1880, [.t .kALIAS, .a ⟨1880, false, [(.raw, 1)], [], [.copy 1]⟩]⟩,
  ⟨NT.reswords, 1881, [.t .kAND, .a ⟨1881, false, [(.raw, 1)], [], [.copy 1]⟩]⟩,
  ⟨NT.reswords, 1882, [.t .kBEGIN, .a ⟨1882, false, [(.raw, 1)], [], [.copy 1]⟩]⟩,
  ⟨NT.reswords, 1883, [.t .kBREAK, .a ⟨1883, false, [(.raw, 1)], [], [.copy 1]⟩]⟩,
  ⟨NT.reswords, 1884, [.t .kCASE, .a ⟨1884, false, [(.raw, 1)], [], [.copy 1]⟩]⟩,
  ⟨NT.reswords, 1885, [.t .kCLASS, .a ⟨1885, false, [(.raw, 1)], [], [.copy 1]⟩]⟩,
  ⟨NT.reswords, 1886, [.t .kDEF, .a ⟨1886, false, [(.raw, 1)], [], [.copy 1]⟩]⟩,
  ⟨NT.reswords, 1887, [.t .kDEFINED, .a ⟨1887, false, [(.raw, 1)], [], [.copy 1]⟩]⟩,
  ⟨NT.reswords, 1888, [.t .kDO, .a ⟨1888, false, [(.raw, 1)], [], [.copy 1]⟩]⟩,
  ⟨NT.reswords, 1889, [.t .kELSE, .a ⟨1889, false, [(.raw, 1)], [], [.copy 1]⟩]⟩,
  ⟨NT.reswords, 1890, [.t .kELSIF, .a ⟨1890, false, [(.raw, 1)], [], [.copy 1]⟩]⟩,
  ⟨NT.reswords, 1891, [.t .kEND, .a ⟨1891, false, [(.raw, 1)], [], [.copy 1]⟩]⟩,
  ⟨NT.reswords, 1892, [.t .kENSURE, .a ⟨1892, false, [(.raw, 1)], [], [.copy 1]⟩]⟩,
  ⟨NT.reswords, 1893, [.t .kFALSE, .a ⟨1893, false, [(.raw, 1)], [], [.copy 1]⟩]⟩,
  ⟨NT.reswords, 1894, [.t .kFOR, .a ⟨1894, false, [(.raw, 1)], [], [.copy 1]⟩]⟩,
  ⟨NT.reswords, 1895, [.t .kIN, .a ⟨1895, false, [(.raw, 1)], [], [.copy 1]⟩]⟩,
  ⟨NT.reswords, 1896, [.t .kMODULE, .a ⟨1896, false, [(.raw, 1)], [], [.copy 1]⟩]⟩,
  ⟨NT.reswords, 1897, [.t .kNEXT, .a ⟨1897, false, [(.raw, 1)], [], [.copy 1]⟩]⟩,
  ⟨NT.reswords, 1898, [.t .kNIL, .a ⟨1898, false, [(.raw, 1)], [], [.copy 1]⟩]⟩,
  ⟨NT.reswords, 1899, [.t .kNOT, .a ⟨1899, false, [(.raw, 1)], [], [.copy 1]⟩]⟩,
  ⟨NT.reswords, 1900, [.t .kOR, .a ⟨1900, false, [(.raw, 1)], [], [.copy 1]⟩]⟩,
  ⟨NT.reswords, 1901, [.t .kREDO, .a ⟨1901, false, [(.raw, 1)], [], [.copy 1]⟩]⟩,
  ⟨NT.reswords, 1902, [.t .kRESCUE, .a ⟨1902, false, [(.raw, 1)], [], [.copy 1]⟩]⟩,
  ⟨NT.reswords, 1903, [.t .kRETRY, .a ⟨1903, false, [(.raw, 1)], [], [.copy 1]⟩]⟩,
  ⟨NT.reswords, 1904, [.t .kRETURN, .a ⟨1904, false, [(.raw, 1)], [], [.copy 1]⟩]⟩,
  ⟨NT.reswords, 1905, [.t .kSELF, .a ⟨1905, false, [(.raw, 1)], [], [.copy 1]⟩]⟩,
  ⟨NT.reswords, 1906, [.t .kSUPER, .a ⟨1906, false, [(.raw, 1)], [], [.copy 1]⟩]⟩,
  ⟨NT.reswords, 1907, [.t .kTHEN, .a ⟨1907, false, [(.raw, 1)], [], [.copy 1]⟩]⟩,
  ⟨NT.reswords, 1908, [.t .kTRUE, .a ⟨1908, false, [(.raw, 1)], [], [.copy 1]⟩]⟩,
  ⟨NT.reswords, 1909, [.t .kUNDEF, .a ⟨1909, false, [(.raw, 1)], [], [.copy 1]⟩]⟩,
  ⟨NT.reswords, 1910, [.t .kWHEN, .a ⟨1910, false, [(.raw, 1)], [], [.copy 1]⟩]⟩,
  ⟨NT.reswords, 1911, [.t .kYIELD, .a ⟨1911, false, [(.raw, 1)], [], [.copy 1]⟩]⟩,
  ⟨NT.reswords, 1912, [.t .kIF, .a ⟨1912, false, [(.raw, 1)], [], [.copy 1]⟩]⟩
]

/-- src/parser/parse.y:1913-2280. -/
def rules5 : List Rule := [
  ⟨NT.reswords, 1913, [.t .kUNLESS, .a ⟨1913, false, [(.raw, 1)], [], [.copy 1]⟩]⟩,
  ⟨NT.reswords, 1914, [.t .kWHILE, .a ⟨1914, false, [(.raw, 1)], [], [.copy 1]⟩]⟩,
  ⟨NT.reswords, 1915, [.t .kUNTIL, .a ⟨1915, false, [(.raw, 1)], [], [.copy 1]⟩]⟩,
  ⟨NT.arg, 1918, [.n NT.lhs, .t .tEQL, .n NT.arg_rhs, .a ⟨1919, false, [(.BoxedNode, 1), (.Token, 2), (.BoxedNode, 3)], [], [.new .Node]⟩]⟩,
  ⟨NT.arg, 1928, [.n NT.var_lhs, .t .tOP_ASGN, .n NT.arg_rhs, .a ⟨1929, false, [(.BoxedNode, 1), (.Token, 2), (.BoxedNode, 3)], [], [.new .Node]⟩]⟩,
  ⟨NT.arg, 1938, [.n NT.primary_value, .t .tLBRACK2, .n NT.opt_call_args, .n NT.rbracket, .t .tOP_ASGN, .n NT.arg_rhs, .a ⟨1939, false, [(.BoxedNode, 1), (.Token, 2), (.NodeList, 3), (.Token, 4), (.Token, 5), (.BoxedNode, 6)], [], [.new .Node]⟩]⟩,
  ⟨NT.arg, 1953, [.n NT.primary_value, .n NT.call_op, .t .tIDENTIFIER, .t .tOP_ASGN, .n NT.arg_rhs, .a ⟨1954, false, [(.BoxedNode, 1), (.Token, 2), (.Token, 3), (.Token, 4), (.BoxedNode, 5)], [], [.new .Node]⟩]⟩,
  ⟨NT.arg, 1970, [.n NT.primary_value, .n NT.call_op, .t .tCONSTANT, .t .tOP_ASGN, .n NT.arg_rhs, .a ⟨1971, false, [(.BoxedNode, 1), (.Token, 2), (.Token, 3), (.Token, 4), (.BoxedNode, 5)], [], [.new .Node]⟩]⟩,
  ⟨NT.arg, 1987, [.n NT.primary_value, .t .tCOLON2, .t .tIDENTIFIER, .t .tOP_ASGN, .n NT.arg_rhs, .a ⟨1988, false, [(.BoxedNode, 1), (.Token, 2), (.Token, 3), (.Token, 4), (.BoxedNode, 5)], [], [.new .Node]⟩]⟩,
  ⟨NT.arg, 2004, [.n NT.primary_value, .t .tCOLON2, .t .tCONSTANT, .t .tOP_ASGN, .n NT.arg_rhs, .a ⟨2005, false, [(.BoxedNode, 1), (.Token, 2), (.Token, 3), (.Token, 4), (.BoxedNode, 5)], [], [.new .Node]⟩]⟩,
  ⟨NT.arg, 2021, [.t .tCOLON3, .t .tCONSTANT, .t .tOP_ASGN, .n NT.arg_rhs, .a ⟨2022, false, [(.Token, 1), (.Token, 2), (.Token, 3), (.BoxedNode, 4)], [], [.new .Node]⟩]⟩,
  ⟨NT.arg, 2037, [.n NT.backref, .t .tOP_ASGN, .n NT.arg_rhs, .a ⟨2038, false, [(.BoxedNode, 1), (.Token, 2), (.BoxedNode, 3)], [], [.new .Node]⟩]⟩,
  ⟨NT.arg, 2047, [.n NT.arg, .t .tDOT2, .n NT.arg, .a ⟨2048, false, [(.BoxedNode, 1), (.BoxedNode, 3), (.Token, 2)], [], [.new .Node]⟩]⟩,
  ⟨NT.arg, 2063, [.n NT.arg, .t .tDOT3, .n NT.arg, .a ⟨2064, false, [(.BoxedNode, 1), (.BoxedNode, 3), (.Token, 2)], [], [.new .Node]⟩]⟩,
  ⟨NT.arg, 2079, [.n NT.arg, .t .tDOT2, .a ⟨2080, false, [(.BoxedNode, 1), (.Token, 2)], [], [.new .Node]⟩]⟩,
  ⟨NT.arg, 2092, [.n NT.arg, .t .tDOT3, .a ⟨2093, false, [(.BoxedNode, 1), (.Token, 2)], [], [.new .Node]⟩]⟩,
  ⟨NT.arg, 2105, [.t .tBDOT2, .n NT.arg, .a ⟨2106, false, [(.BoxedNode, 2), (.Token, 1)], [], [.new .Node]⟩]⟩,
  ⟨NT.arg, 2118, [.t .tBDOT3, .n NT.arg, .a ⟨2119, false, [(.BoxedNode, 2), (.Token, 1)], [], [.new .Node]⟩]⟩,
  ⟨NT.arg, 2131, [.n NT.arg, .t .tPLUS, .n NT.arg, .a ⟨2132, false, [(.BoxedNode, 1), (.Token, 2), (.BoxedNode, 3)], [], [.new .Node]⟩]⟩,
  ⟨NT.arg, 2137, [.n NT.arg, .t .tMINUS, .n NT.arg, .a ⟨2138, false, [(.BoxedNode, 1), (.Token, 2), (.BoxedNode, 3)], [], [.new .Node]⟩]⟩,
  ⟨NT.arg, 2143, [.n NT.arg, .t .tSTAR2, .n NT.arg, .a ⟨2144, false, [(.BoxedNode, 1), (.Token, 2), (.BoxedNode, 3)], [], [.new .Node]⟩]⟩,
  ⟨NT.arg, 2149, [.n NT.arg, .t .tDIVIDE, .n NT.arg, .a ⟨2150, false, [(.BoxedNode, 1), (.Token, 2), (.BoxedNode, 3)], [], [.new .Node]⟩]⟩,
  ⟨NT.arg, 2155, [.n NT.arg, .t .tPERCENT, .n NT.arg, .a ⟨2156, false, [(.BoxedNode, 1), (.Token, 2), (.BoxedNode, 3)], [], [.new .Node]⟩]⟩,
  ⟨NT.arg, 2161, [.n NT.arg, .t .tPOW, .n NT.arg, .a ⟨2162, false, [(.BoxedNode, 1), (.Token, 2), (.BoxedNode, 3)], [], [.new .Node]⟩]⟩,
  ⟨NT.arg, 2167, [.t .tUMINUS_NUM, .n NT.simple_numeric, .t .tPOW, .n NT.arg, .a ⟨2168, false, [(.Token, 1), (.BoxedNode, 2), (.Token, 3), (.BoxedNode, 4)], [], [.new .Node]⟩]⟩,
  ⟨NT.arg, 2180, [.t .tUPLUS, .n NT.arg, .a ⟨2181, false, [(.Token, 1), (.BoxedNode, 2)], [], [.new .Node]⟩]⟩,
  ⟨NT.arg, 2189, [.t .tUMINUS, .n NT.arg, .a ⟨2190, false, [(.Token, 1), (.BoxedNode, 2)], [], [.new .Node]⟩]⟩,
  ⟨NT.arg, 2198, [.n NT.arg, .t .tPIPE, .n NT.arg, .a ⟨2199, false, [(.BoxedNode, 1), (.Token, 2), (.BoxedNode, 3)], [], [.new .Node]⟩]⟩,
  ⟨NT.arg, 2204, [.n NT.arg, .t .tCARET, .n NT.arg, .a ⟨2205, false, [(.BoxedNode, 1), (.Token, 2), (.BoxedNode, 3)], [], [.new .Node]⟩]⟩,
  ⟨NT.arg, 2210, [.n NT.arg, .t .tAMPER2, .n NT.arg, .a ⟨2211, false, [(.BoxedNode, 1), (.Token, 2), (.BoxedNode, 3)], [], [.new .Node]⟩]⟩,
  ⟨NT.arg, 2216, [.n NT.arg, .t .tCMP, .n NT.arg, .a ⟨2217, false, [(.BoxedNode, 1), (.Token, 2), (.BoxedNode, 3)], [], [.new .Node]⟩]⟩,
  ⟨NT.arg, 2222, [.n NT.rel_expr, .a ⟨2223, false, [(.raw, 1)], [], [.copy 1]⟩]⟩,
  ⟨NT.arg, 2226, [.n NT.arg, .t .tEQ, .n NT.arg, .a ⟨2227, false, [(.BoxedNode, 1), (.Token, 2), (.BoxedNode, 3)], [], [.new .Node]⟩]⟩,
  ⟨NT.arg, 2232, [.n NT.arg, .t .tEQQ, .n NT.arg, .a ⟨2233, false, [(.BoxedNode, 1), (.Token, 2), (.BoxedNode, 3)], [], [.new .Node]⟩]⟩,
  ⟨NT.arg, 2238, [.n NT.arg, .t .tNEQ, .n NT.arg, .a ⟨2239, false, [(.BoxedNode, 1), (.Token, 2), (.BoxedNode, 3)], [], [.new .Node]⟩]⟩,
  ⟨NT.arg, 2244, [.n NT.arg, .t .tMATCH, .n NT.arg, .a ⟨2245, false, [(.BoxedNode, 1), (.Token, 2), (.BoxedNode, 3)], [.touch [.env]], [.new .Node]⟩]⟩,
  ⟨NT.arg, 2250, [.n NT.arg, .t .tNMATCH, .n NT.arg, .a ⟨2251, false, [(.BoxedNode, 1), (.Token, 2), (.BoxedNode, 3)], [], [.new .Node]⟩]⟩,
  ⟨NT.arg, 2260, [.t .tBANG, .n NT.arg, .a ⟨2261, false, [(.Token, 1), (.BoxedNode, 2)], [], [.new .Node]⟩]⟩,
  ⟨NT.arg, 2271, [.t .tTILDE, .n NT.arg, .a ⟨2272, false, [(.Token, 1), (.BoxedNode, 2)], [], [.new .Node]⟩]⟩,
  ⟨NT.arg, 2280, [.n NT.arg, .t .tLSHFT, .n NT.arg, .a ⟨2281, false, [(.BoxedNode, 1), (.Token, 2), (.BoxedNode, 3)], [], [.new .Node]⟩]⟩
]

/-- src/parser/parse.y:2286-2764. -/
def rules6 : List Rule := [
  ⟨NT.arg, 2286, [.n NT.arg, .t .tRSHFT, .n NT.arg, .a ⟨2287, false, [(.BoxedNode, 1), (.Token, 2), (.BoxedNode, 3)], [], [.new .Node]⟩]⟩,
  ⟨NT.arg, 2292, [.n NT.arg, .t .tANDOP, .n NT.arg, .a ⟨2293, false, [(.BoxedNode, 1), (.Token, 2), (.BoxedNode, 3)], [], [.new .Node]⟩]⟩,
  ⟨NT.arg, 2303, [.n NT.arg, .t .tOROP, .n NT.arg, .a ⟨2304, false, [(.BoxedNode, 1), (.Token, 2), (.BoxedNode, 3)], [], [.new .Node]⟩]⟩,
  ⟨NT.arg, 2314, [.t .kDEFINED, .n NT.opt_nl, .a ⟨2315, false, [], [.flag .inDefined true], [.new .None]⟩, .n NT.arg, .a ⟨2320, false, [(.Token, 1), (.Node, 4)], [.flag .inDefined false], [.new .Node]⟩]⟩,
  ⟨NT.arg, 2332, [.n NT.arg, .t .tEH, .n NT.arg, .n NT.opt_nl, .t .tCOLON, .n NT.arg, .a ⟨2333, false, [(.BoxedNode, 1), (.Token, 2), (.BoxedNode, 3), (.Token, 5), (.BoxedNode, 6)], [], [.new .Node]⟩]⟩,
  ⟨NT.arg, 2347, [.n NT.defn_head, .n NT.f_opt_paren_args, .t .tEQL, .n NT.arg, .a ⟨2348, false, [(.DefnHead, 1), (.MaybeBoxedNode, 2), (.Token, 3), (.BoxedNode, 4)], [.envPop, .cmdPop, .condPop, .numPop, .argPop, .restore .inDef 1], [.new .Node]⟩]⟩,
  ⟨NT.arg, 2367, [.n NT.defn_head, .n NT.f_opt_paren_args, .t .tEQL, .n NT.arg, .t .kRESCUE_MOD, .n NT.arg, .a ⟨2368, false, [(.DefnHead, 1), (.Token, 5), (.BoxedNode, 6), (.BoxedNode, 4), (.MaybeBoxedNode, 2), (.Token, 3)], [.envPop, .cmdPop, .condPop, .numPop, .argPop, .restore .inDef 1], [.new .Node]⟩]⟩,
  ⟨NT.arg, 2403, [.n NT.defs_head, .n NT.f_opt_paren_args, .t .tEQL, .n NT.arg, .a ⟨2404, false, [(.DefsHead, 1), (.MaybeBoxedNode, 2), (.Token, 3), (.BoxedNode, 4)], [.envPop, .cmdPop, .condPop, .numPop, .argPop, .restore .inDef 1], [.new .Node]⟩]⟩,
  ⟨NT.arg, 2425, [.n NT.defs_head, .n NT.f_opt_paren_args, .t .tEQL, .n NT.arg, .t .kRESCUE_MOD, .n NT.arg, .a ⟨2426, false, [(.DefsHead, 1), (.Token, 5), (.BoxedNode, 6), (.BoxedNode, 4), (.MaybeBoxedNode, 2), (.Token, 3)], [.envPop, .cmdPop, .condPop, .numPop, .argPop, .restore .inDef 1], [.new .Node]⟩]⟩,
  ⟨NT.arg, 2463, [.n NT.primary, .a ⟨2464, false, [(.raw, 1)], [], [.copy 1]⟩]⟩,
  ⟨NT.relop, 2469, [.t .tGT, .a ⟨2470, false, [(.raw, 1)], [], [.copy 1]⟩]⟩,
  ⟨NT.relop, 2473, [.t .tLT, .a ⟨2474, false, [(.raw, 1)], [], [.copy 1]⟩]⟩,
  ⟨NT.relop, 2477, [.t .tGEQ, .a ⟨2478, false, [(.raw, 1)], [], [.copy 1]⟩]⟩,
  ⟨NT.relop, 2481, [.t .tLEQ, .a ⟨2482, false, [(.raw, 1)], [], [.copy 1]⟩]⟩,
  ⟨NT.rel_expr, 2487, [.n NT.arg, .n NT.relop, .n NT.arg, .a ⟨2488, false, [(.BoxedNode, 1), (.Token, 2), (.BoxedNode, 3)], [], [.new .Node]⟩]⟩,
  ⟨NT.rel_expr, 2497, [.n NT.rel_expr, .n NT.relop, .n NT.arg, .a ⟨2498, false, [(.Token, 2), (.BoxedNode, 1), (.BoxedNode, 3)], [], [.new .Node]⟩]⟩,
  ⟨NT.arg_value, 2514, [.n NT.arg, .a ⟨2515, false, [(.BoxedNode, 1)], [], [.new .Node]⟩]⟩,
  ⟨NT.aref_args, 2522, [.n NT.none, .a ⟨2523, false, [], [], [.new .NodeList]⟩]⟩,
  ⟨NT.aref_args, 2526, [.n NT.args, .n NT.trailer, .a ⟨2527, false, [(.raw, 1)], [], [.copy 1]⟩]⟩,
  ⟨NT.aref_args, 2530, [.n NT.args, .t .tCOMMA, .n NT.assocs, .n NT.trailer, .a ⟨2531, false, [(.BoxedNodeList, 1), (.NodeList, 3)], [], [.new .NodeList]⟩]⟩,
  ⟨NT.aref_args, 2542, [.n NT.assocs, .n NT.trailer, .a ⟨2543, false, [(.NodeList, 1)], [], [.new .NodeList]⟩]⟩,
  ⟨NT.arg_rhs, 2558, [.n NT.arg, .a ⟨2559, false, [(.BoxedNode, 1)], [], [.new .Node]⟩]⟩,
  ⟨NT.arg_rhs, 2564, [.n NT.arg, .t .kRESCUE_MOD, .n NT.arg, .a ⟨2565, false, [(.BoxedNode, 1), (.Token, 2), (.BoxedNode, 3)], [], [.new .Node]⟩]⟩,
  ⟨NT.paren_args, 2589, [.t .tLPAREN2, .n NT.opt_call_args, .n NT.rparen, .a ⟨2590, false, [(.Token, 1), (.NodeList, 2), (.Token, 3)], [], [.new .ParenArgs]⟩]⟩,
  ⟨NT.paren_args, 2599, [.t .tLPAREN2, .n NT.args, .t .tCOMMA, .n NT.args_forward, .n NT.rparen, .a ⟨2600, false, [(.NodeList, 2), (.Token, 4), (.Token, 1), (.Token, 5)], [], [.new .ParenArgs]⟩]⟩,
  ⟨NT.paren_args, 2620, [.t .tLPAREN2, .n NT.args_forward, .n NT.rparen, .a ⟨2621, false, [(.Token, 1), (.Token, 2), (.Token, 3)], [], [.new .ParenArgs]⟩]⟩,
  ⟨NT.opt_paren_args, 2636, [.n NT.none, .a ⟨2637, false, [], [], [.new .OptParenArgs]⟩]⟩,
  ⟨NT.opt_paren_args, 2646, [.n NT.paren_args, .a ⟨2647, false, [(.ParenArgs, 1)], [], [.new .OptParenArgs]⟩]⟩,
  ⟨NT.opt_call_args, 2659, [.n NT.none, .a ⟨2660, false, [], [], [.new .NodeList]⟩]⟩,
  ⟨NT.opt_call_args, 2663, [.n NT.call_args, .a ⟨2664, false, [(.raw, 1)], [], [.copy 1]⟩]⟩,
  ⟨NT.opt_call_args, 2667, [.n NT.args, .t .tCOMMA, .a ⟨2668, false, [(.raw, 1)], [], [.copy 1]⟩]⟩,
  ⟨NT.opt_call_args, 2671, [.n NT.args, .t .tCOMMA, .n NT.assocs, .t .tCOMMA, .a ⟨2672, false, [(.BoxedNodeList, 1), (.NodeList, 3)], [], [.new .NodeList]⟩]⟩,
  ⟨NT.opt_call_args, 2678, [.n NT.assocs, .t .tCOMMA, .a ⟨2679, false, [(.NodeList, 1)], [], [.new .NodeList]⟩]⟩,
  ⟨NT.call_args, 2694, [.n NT.command, .a ⟨2695, false, [(.Node, 1)], [], [.new .NodeList]⟩]⟩,
  ⟨NT.call_args, 2700, [.n NT.args, .n NT.opt_block_arg, .a ⟨2701, false, [(.BoxedNodeList, 1), (.NodeList, 2)], [], [.new .NodeList]⟩]⟩,
  ⟨NT.call_args, 2707, [.n NT.assocs, .n NT.opt_block_arg, .a ⟨2708, false, [(.NodeList, 1), (.NodeList, 2)], [], [.new .NodeList]⟩]⟩,
  ⟨NT.call_args, 2718, [.n NT.args, .t .tCOMMA, .n NT.assocs, .n NT.opt_block_arg, .a ⟨2719, false, [(.BoxedNodeList, 1), (.NodeList, 3), (.NodeList, 4)], [], [.new .NodeList]⟩]⟩,
  ⟨NT.call_args, 2730, [.n NT.block_arg, .a ⟨2731, false, [(.Node, 1)], [], [.new .NodeList]⟩]⟩,
  ⟨NT.command_args, 2736, [.a ⟨2736, false, [], [.cmdPushLA], [.new .None]⟩, .n NT.call_args, .a ⟨2753, false, [(.raw, 2)], [.cmdPopLA], [.copy 2]⟩]⟩,
  ⟨NT.block_arg, 2764, [.t .tAMPER, .n NT.arg_value, .a ⟨2765, false, [(.Token, 1), (.BoxedNode, 2)], [], [.new .Node]⟩]⟩
]

/-- src/parser/parse.y:2773-3114. -/
def rules7 : List Rule := [
  ⟨NT.block_arg, 2773, [.t .tAMPER, .a ⟨2774, false, [(.Token, 1)], [], [.new .Node]⟩]⟩,
  ⟨NT.opt_block_arg, 2788, [.t .tCOMMA, .n NT.block_arg, .a ⟨2789, false, [(.Node, 2)], [], [.new .NodeList]⟩]⟩,
  ⟨NT.opt_block_arg, 2792, [.n NT.none, .a ⟨2793, false, [], [], [.new .NodeList]⟩]⟩,
  ⟨NT.args, 2798, [.n NT.arg_value, .a ⟨2799, false, [(.Node, 1)], [], [.new .NodeList]⟩]⟩,
  ⟨NT.args, 2802, [.t .tSTAR, .n NT.arg_value, .a ⟨2803, false, [(.Token, 1), (.BoxedNode, 2)], [], [.new .NodeList]⟩]⟩,
  ⟨NT.args, 2815, [.n NT.args, .t .tCOMMA, .n NT.arg_value, .a ⟨2816, false, [(.BoxedNodeList, 1), (.Node, 3)], [], [.new .NodeList]⟩]⟩,
  ⟨NT.args, 2821, [.n NT.args, .t .tCOMMA, .t .tSTAR, .n NT.arg_value, .a ⟨2822, false, [(.BoxedNodeList, 1), (.Token, 3), (.BoxedNode, 4)], [], [.new .NodeList]⟩]⟩,
  ⟨NT.mrhs_arg, 2830, [.n NT.mrhs, .a ⟨2831, false, [(.NodeList, 1)], [], [.new .Node]⟩]⟩,
  ⟨NT.mrhs_arg, 2836, [.n NT.arg_value, .a ⟨2837, false, [(.raw, 1)], [], [.copy 1]⟩]⟩,
  ⟨NT.mrhs, 2842, [.n NT.args, .t .tCOMMA, .n NT.arg_value, .a ⟨2843, false, [(.BoxedNodeList, 1), (.Node, 3)], [], [.new .NodeList]⟩]⟩,
  ⟨NT.mrhs, 2848, [.n NT.args, .t .tCOMMA, .t .tSTAR, .n NT.arg_value, .a ⟨2849, false, [(.BoxedNodeList, 1), (.Token, 3), (.BoxedNode, 4)], [], [.new .NodeList]⟩]⟩,
  ⟨NT.mrhs, 2856, [.t .tSTAR, .n NT.arg_value, .a ⟨2857, false, [(.Token, 1), (.BoxedNode, 2)], [], [.new .NodeList]⟩]⟩,
  ⟨NT.primary, 2871, [.n NT.literal, .a ⟨2872, false, [(.raw, 1)], [], [.copy 1]⟩]⟩,
  ⟨NT.primary, 2875, [.n NT.strings, .a ⟨2876, false, [(.raw, 1)], [], [.copy 1]⟩]⟩,
  ⟨NT.primary, 2879, [.n NT.xstring, .a ⟨2880, false, [(.raw, 1)], [], [.copy 1]⟩]⟩,
  ⟨NT.primary, 2883, [.n NT.regexp, .a ⟨2884, false, [(.raw, 1)], [], [.copy 1]⟩]⟩,
  ⟨NT.primary, 2887, [.n NT.words, .a ⟨2888, false, [(.raw, 1)], [], [.copy 1]⟩]⟩,
  ⟨NT.primary, 2891, [.n NT.qwords, .a ⟨2892, false, [(.raw, 1)], [], [.copy 1]⟩]⟩,
  ⟨NT.primary, 2895, [.n NT.symbols, .a ⟨2896, false, [(.raw, 1)], [], [.copy 1]⟩]⟩,
  ⟨NT.primary, 2899, [.n NT.qsymbols, .a ⟨2900, false, [(.raw, 1)], [], [.copy 1]⟩]⟩,
  ⟨NT.primary, 2903, [.n NT.var_ref, .a ⟨2904, false, [(.raw, 1)], [], [.copy 1]⟩]⟩,
  ⟨NT.primary, 2907, [.n NT.backref, .a ⟨2908, false, [(.raw, 1)], [], [.copy 1]⟩]⟩,
  ⟨NT.primary, 2911, [.t .tFID, .a ⟨2912, false, [(.Token, 1)], [], [.new .Node]⟩]⟩,
  ⟨NT.primary, 2924, [.n NT.k_begin, .a ⟨2925, false, [], [.cmdPush false], [.new .None]⟩, .n NT.bodystmt, .n NT.k_end, .a ⟨2931, false, [(.Token, 1), (.MaybeBoxedNode, 3), (.Token, 4)], [.cmdPop], [.new .Node]⟩]⟩,
  ⟨NT.primary, 2938, [.t .tLPAREN_ARG, .a ⟨2938, false, [], [], [.new .None]⟩, .n NT.rparen, .a ⟨2939, false, [(.Token, 1), (.Token, 3)], [], [.new .Node]⟩]⟩,
  ⟨NT.primary, 2948, [.t .tLPAREN_ARG, .n NT.stmt, .a ⟨2948, false, [], [], [.new .None]⟩, .n NT.rparen, .a ⟨2949, false, [(.Token, 1), (.BoxedNode, 2), (.Token, 4)], [], [.new .Node]⟩]⟩,
  ⟨NT.primary, 2958, [.t .tLPAREN, .n NT.compstmt, .t .tRPAREN, .a ⟨2959, false, [(.Token, 1), (.MaybeBoxedNode, 2), (.Token, 3)], [], [.new .Node]⟩]⟩,
  ⟨NT.primary, 2968, [.n NT.primary_value, .t .tCOLON2, .t .tCONSTANT, .a ⟨2969, false, [(.BoxedNode, 1), (.Token, 2), (.Token, 3)], [], [.new .Node]⟩]⟩,
  ⟨NT.primary, 2978, [.t .tCOLON3, .t .tCONSTANT, .a ⟨2979, false, [(.Token, 1), (.Token, 2)], [], [.new .Node]⟩]⟩,
  ⟨NT.primary, 2984, [.t .tLBRACK, .n NT.aref_args, .t .tRBRACK, .a ⟨2985, false, [(.Token, 1), (.NodeList, 2), (.Token, 3)], [], [.new .Node]⟩]⟩,
  ⟨NT.primary, 2994, [.t .tLBRACE, .n NT.assoc_list, .t .tRCURLY, .a ⟨2995, false, [(.Token, 1), (.NodeList, 2), (.Token, 3)], [], [.new .Node]⟩]⟩,
  ⟨NT.primary, 3004, [.n NT.k_return, .a ⟨3005, false, [(.Token, 1)], [], [.new .Node]⟩]⟩,
  ⟨NT.primary, 3016, [.t .kYIELD, .t .tLPAREN2, .n NT.call_args, .n NT.rparen, .a ⟨3017, false, [(.Token, 1), (.Token, 2), (.NodeList, 3), (.Token, 4)], [], [.new .Node]⟩]⟩,
  ⟨NT.primary, 3028, [.t .kYIELD, .t .tLPAREN2, .n NT.rparen, .a ⟨3029, false, [(.Token, 1), (.Token, 2), (.Token, 3)], [], [.new .Node]⟩]⟩,
  ⟨NT.primary, 3040, [.t .kYIELD, .a ⟨3041, false, [(.Token, 1)], [], [.new .Node]⟩]⟩,
  ⟨NT.primary, 3052, [.t .kDEFINED, .n NT.opt_nl, .t .tLPAREN2, .a ⟨3053, false, [], [.flag .inDefined true], [.new .None]⟩, .n NT.expr, .n NT.rparen, .a ⟨3058, false, [(.Token, 1), (.Token, 3), (.Node, 5), (.Token, 6)], [.flag .inDefined false], [.new .Node]⟩]⟩,
  ⟨NT.primary, 3070, [.t .kNOT, .t .tLPAREN2, .n NT.expr, .n NT.rparen, .a ⟨3071, false, [(.Token, 1), (.Token, 2), (.BoxedNode, 3), (.Token, 4)], [], [.new .Node]⟩]⟩,
  ⟨NT.primary, 3081, [.t .kNOT, .t .tLPAREN2, .n NT.rparen, .a ⟨3082, false, [(.Token, 1), (.Token, 2), (.Token, 3)], [], [.new .Node]⟩]⟩,
  ⟨NT.primary, 3092, [.n NT.fcall, .n NT.brace_block, .a ⟨3093, false, [(.Token, 1), (.BraceBlock, 2)], [], [.new .Node]⟩]⟩,
  ⟨NT.primary, 3114, [.n NT.method_call, .a ⟨3115, false, [(.raw, 1)], [], [.copy 1]⟩]⟩
]

/-- src/parser/parse.y:3118-3600. -/
def rules8 : List Rule := [
  ⟨NT.primary, 3118, [.n NT.method_call, .n NT.brace_block, .a ⟨3119, false, [(.BraceBlock, 2), (.BoxedNode, 1)], [], [.new .Node]⟩]⟩,
  ⟨NT.primary, 3131, [.n NT.lambda, .a ⟨3132, false, [(.raw, 1)], [], [.copy 1]⟩]⟩,
  ⟨NT.primary, 3135, [.n NT.k_if, .n NT.expr_value, .n NT.«then», .n NT.compstmt, .n NT.if_tail, .n NT.k_end, .a ⟨3139, false, [(.IfTail, 5), (.Token, 1), (.BoxedNode, 2), (.Token, 3), (.MaybeBoxedNode, 4), (.Token, 6)], [], [.new .Node]⟩]⟩,
  ⟨NT.primary, 3154, [.n NT.k_unless, .n NT.expr_value, .n NT.«then», .n NT.compstmt, .n NT.opt_else, .n NT.k_end, .a ⟨3158, false, [(.OptElse, 5), (.Token, 1), (.BoxedNode, 2), (.Token, 3), (.MaybeBoxedNode, 4), (.Token, 6)], [], [.new .Node]⟩]⟩,
  ⟨NT.primary, 3173, [.n NT.k_while, .n NT.expr_value_do, .n NT.compstmt, .n NT.k_end, .a ⟨3176, false, [(.ExprValueDo, 2), (.Token, 1), (.MaybeBoxedNode, 3), (.Token, 4)], [], [.new .Node]⟩]⟩,
  ⟨NT.primary, 3189, [.n NT.k_until, .n NT.expr_value_do, .n NT.compstmt, .n NT.k_end, .a ⟨3192, false, [(.ExprValueDo, 2), (.Token, 1), (.MaybeBoxedNode, 3), (.Token, 4)], [], [.new .Node]⟩]⟩,
  ⟨NT.primary, 3205, [.n NT.k_case, .n NT.expr_value, .n NT.opt_terms, .a ⟨3206, false, [], [], [.new .None]⟩, .n NT.case_body, .n NT.k_end, .a ⟨3213, false, [(.CaseBody, 5), (.Token, 1), (.BoxedNode, 2), (.Token, 6)], [], [.new .Node]⟩]⟩,
  ⟨NT.primary, 3228, [.n NT.k_case, .n NT.opt_terms, .a ⟨3229, false, [], [], [.new .None]⟩, .n NT.case_body, .n NT.k_end, .a ⟨3236, false, [(.CaseBody, 4), (.Token, 1), (.Token, 5)], [], [.new .Node]⟩]⟩,
  ⟨NT.primary, 3251, [.n NT.k_case, .n NT.expr_value, .n NT.opt_terms, .n NT.p_case_body, .n NT.k_end, .a ⟨3254, false, [(.PCaseBody, 4), (.Token, 1), (.BoxedNode, 2), (.Token, 5)], [], [.new .Node]⟩]⟩,
  ⟨NT.primary, 3269, [.n NT.k_for, .n NT.for_var, .t .kIN, .n NT.expr_value_do, .n NT.compstmt, .n NT.k_end, .a ⟨3272, false, [(.ExprValueDo, 4), (.Token, 1), (.BoxedNode, 2), (.Token, 3), (.MaybeBoxedNode, 5), (.Token, 6)], [], [.new .Node]⟩]⟩,
  ⟨NT.primary, 3286, [.n NT.k_class, .n NT.cpath, .n NT.superclass, .a ⟨3287, false, [], [.envStatic, .cmdPush false, .condPush false, .numPush true, .flag .inClass true], [.new .None]⟩, .n NT.bodystmt, .n NT.k_end, .a ⟨3294, false, [(.TokenWithContext, 1), (.Superclass, 3), (.BoxedNode, 2), (.MaybeBoxedNode, 5), (.Token, 6)], [.envPop, .cmdPop, .condPop, .numPop, .restore .inClass 1], [.new .Node]⟩]⟩,
  ⟨NT.primary, 3316, [.n NT.k_class, .t .tLSHFT, .n NT.expr, .a ⟨3317, false, [], [.flag .inDef false, .flag .inClass false, .envStatic, .cmdPush false, .condPush false, .numPush true], [.new .None]⟩, .n NT.term, .n NT.bodystmt, .n NT.k_end, .a ⟨3326, false, [(.TokenWithContext, 1), (.Token, 2), (.BoxedNode, 3), (.MaybeBoxedNode, 6), (.Token, 7)], [.envPop, .cmdPop, .condPop, .numPop, .restore .inDef 1, .restore .inClass 1], [.new .Node]⟩]⟩,
  ⟨NT.primary, 3342, [.n NT.k_module, .n NT.cpath, .a ⟨3343, false, [], [.envStatic, .cmdPush false, .condPush false, .numPush true, .flag .inClass true], [.new .None]⟩, .n NT.bodystmt, .n NT.k_end, .a ⟨3350, false, [(.TokenWithContext, 1), (.BoxedNode, 2), (.MaybeBoxedNode, 4), (.Token, 5)], [.envPop, .cmdPop, .condPop, .numPop, .restore .inClass 1], [.new .Node]⟩]⟩,
  ⟨NT.primary, 3368, [.n NT.defn_head, .n NT.f_arglist, .n NT.bodystmt, .n NT.k_end, .a ⟨3369, false, [(.DefnHead, 1), (.MaybeBoxedNode, 2), (.MaybeBoxedNode, 3), (.Token, 4)], [.envPop, .cmdPop, .condPop, .numPop, .argPop, .restore .inDef 1], [.new .Node]⟩]⟩,
  ⟨NT.primary, 3387, [.n NT.defs_head, .n NT.f_arglist, .n NT.bodystmt, .n NT.k_end, .a ⟨3388, false, [(.DefsHead, 1), (.MaybeBoxedNode, 2), (.MaybeBoxedNode, 3), (.Token, 4)], [.envPop, .cmdPop, .condPop, .numPop, .argPop, .restore .inDef 1], [.new .Node]⟩]⟩,
  ⟨NT.primary, 3408, [.t .kBREAK, .a ⟨3409, false, [(.Token, 1)], [], [.new .Node]⟩]⟩,
  ⟨NT.primary, 3420, [.t .kNEXT, .a ⟨3421, false, [(.Token, 1)], [], [.new .Node]⟩]⟩,
  ⟨NT.primary, 3432, [.t .kREDO, .a ⟨3433, false, [(.Token, 1)], [], [.new .Node]⟩]⟩,
  ⟨NT.primary, 3444, [.t .kRETRY, .a ⟨3445, false, [(.Token, 1)], [], [.new .Node]⟩]⟩,
  ⟨NT.primary_value, 3458, [.n NT.primary, .a ⟨3459, false, [(.BoxedNode, 1)], [], [.new .Node]⟩]⟩,
  ⟨NT.k_begin, 3466, [.t .kBEGIN, .a ⟨3467, false, [(.raw, 1)], [], [.copy 1]⟩]⟩,
  ⟨NT.k_if, 3472, [.t .kIF, .a ⟨3473, false, [(.raw, 1)], [], [.copy 1]⟩]⟩,
  ⟨NT.k_unless, 3479, [.t .kUNLESS, .a ⟨3480, false, [(.raw, 1)], [], [.copy 1]⟩]⟩,
  ⟨NT.k_while, 3485, [.t .kWHILE, .a ⟨3486, false, [(.raw, 1)], [], [.copy 1]⟩]⟩,
  ⟨NT.k_until, 3491, [.t .kUNTIL, .a ⟨3492, false, [(.raw, 1)], [], [.copy 1]⟩]⟩,
  ⟨NT.k_case, 3497, [.t .kCASE, .a ⟨3498, false, [(.raw, 1)], [], [.copy 1]⟩]⟩,
  ⟨NT.k_for, 3503, [.t .kFOR, .a ⟨3504, false, [(.raw, 1)], [], [.copy 1]⟩]⟩,
  ⟨NT.k_class, 3509, [.t .kCLASS, .a ⟨3510, false, [(.Token, 1)], [.dump], [.new .TokenWithContext]⟩]⟩,
  ⟨NT.k_module, 3522, [.t .kMODULE, .a ⟨3523, false, [(.Token, 1)], [.dump], [.new .TokenWithContext]⟩]⟩,
  ⟨NT.k_def, 3535, [.t .kDEF, .a ⟨3536, false, [(.raw, 1)], [.flag .inArgdef true], [.copy 1]⟩]⟩,
  ⟨NT.k_do, 3542, [.t .kDO, .a ⟨3543, false, [(.raw, 1)], [], [.copy 1]⟩]⟩,
  ⟨NT.k_do_block, 3548, [.t .kDO_BLOCK, .a ⟨3549, false, [(.raw, 1)], [], [.copy 1]⟩]⟩,
  ⟨NT.k_rescue, 3554, [.t .kRESCUE, .a ⟨3555, false, [(.raw, 1)], [], [.copy 1]⟩]⟩,
  ⟨NT.k_ensure, 3560, [.t .kENSURE, .a ⟨3561, false, [(.raw, 1)], [], [.copy 1]⟩]⟩,
  ⟨NT.k_when, 3566, [.t .kWHEN, .a ⟨3567, false, [(.raw, 1)], [], [.copy 1]⟩]⟩,
  ⟨NT.k_else, 3572, [.t .kELSE, .a ⟨3573, false, [(.raw, 1)], [], [.copy 1]⟩]⟩,
  ⟨NT.k_elsif, 3578, [.t .kELSIF, .a ⟨3579, false, [(.raw, 1)], [], [.copy 1]⟩]⟩,
  ⟨NT.k_end, 3585, [.t .kEND, .a ⟨3586, false, [(.raw, 1)], [], [.copy 1]⟩]⟩,
  ⟨NT.k_return, 3591, [.t .kRETURN, .a ⟨3592, false, [(.raw, 1)], [], [.copy 1]⟩]⟩,
  ⟨NT.«then», 3600, [.n NT.term, .a ⟨3601, false, [(.raw, 1)], [], [.copy 1]⟩]⟩
]

/-- src/parser/parse.y:3604-3934. -/
def rules9 : List Rule := [
  ⟨NT.«then», 3604, [.t .kTHEN, .a ⟨3605, false, [(.raw, 1)], [], [.copy 1]⟩]⟩,
  ⟨NT.«then», 3608, [.n NT.term, .t .kTHEN, .a ⟨3609, false, [(.raw, 2)], [], [.copy 2]⟩]⟩,
  ⟨NT.«do», 3614, [.n NT.term, .a ⟨3615, false, [(.raw, 1)], [], [.copy 1]⟩]⟩,
  ⟨NT.«do», 3618, [.t .kDO_COND, .a ⟨3619, false, [(.raw, 1)], [], [.copy 1]⟩]⟩,
  ⟨NT.if_tail, 3624, [.n NT.opt_else, .a ⟨3625, false, [(.OptElse, 1)], [], [.new .IfTail]⟩]⟩,
  ⟨NT.if_tail, 3629, [.n NT.k_elsif, .n NT.expr_value, .n NT.«then», .n NT.compstmt, .n NT.if_tail, .a ⟨3632, false, [(.IfTail, 5), (.Token, 1), (.BoxedNode, 2), (.Token, 3), (.MaybeBoxedNode, 4)], [], [.new .IfTail]⟩]⟩,
  ⟨NT.opt_else, 3656, [.n NT.none, .a ⟨3657, false, [], [], [.new .OptElse]⟩]⟩,
  ⟨NT.opt_else, 3660, [.n NT.k_else, .n NT.compstmt, .a ⟨3661, false, [(.Token, 1), (.MaybeBoxedNode, 2)], [], [.new .OptElse]⟩]⟩,
  ⟨NT.for_var, 3668, [.n NT.lhs, .a ⟨3669, false, [(.raw, 1)], [], [.copy 1]⟩]⟩,
  ⟨NT.for_var, 3672, [.n NT.mlhs, .a ⟨3673, false, [(.raw, 1)], [], [.copy 1]⟩]⟩,
  ⟨NT.f_marg, 3678, [.n NT.f_norm_arg, .a ⟨3679, false, [(.Token, 1)], [], [.new .Node]⟩]⟩,
  ⟨NT.f_marg, 3684, [.t .tLPAREN, .n NT.f_margs, .n NT.rparen, .a ⟨3685, false, [(.Token, 1), (.NodeList, 2), (.Token, 3)], [], [.new .Node]⟩]⟩,
  ⟨NT.f_marg_list, 3696, [.n NT.f_marg, .a ⟨3697, false, [(.Node, 1)], [], [.new .NodeList]⟩]⟩,
  ⟨NT.f_marg_list, 3700, [.n NT.f_marg_list, .t .tCOMMA, .n NT.f_marg, .a ⟨3701, false, [(.BoxedNodeList, 1), (.Node, 3)], [], [.new .NodeList]⟩]⟩,
  ⟨NT.f_margs, 3708, [.n NT.f_marg_list, .a ⟨3709, false, [(.raw, 1)], [], [.copy 1]⟩]⟩,
  ⟨NT.f_margs, 3712, [.n NT.f_marg_list, .t .tCOMMA, .n NT.f_rest_marg, .a ⟨3713, false, [(.BoxedNodeList, 1), (.Node, 3)], [], [.new .NodeList]⟩]⟩,
  ⟨NT.f_margs, 3718, [.n NT.f_marg_list, .t .tCOMMA, .n NT.f_rest_marg, .t .tCOMMA, .n NT.f_marg_list, .a ⟨3719, false, [(.BoxedNodeList, 1), (.Node, 3), (.NodeList, 5)], [], [.new .NodeList]⟩]⟩,
  ⟨NT.f_margs, 3730, [.n NT.f_rest_marg, .a ⟨3731, false, [(.Node, 1)], [], [.new .NodeList]⟩]⟩,
  ⟨NT.f_margs, 3734, [.n NT.f_rest_marg, .t .tCOMMA, .n NT.f_marg_list, .a ⟨3735, false, [(.Node, 1), (.NodeList, 3)], [], [.new .NodeList]⟩]⟩,
  ⟨NT.f_rest_marg, 3747, [.t .tSTAR, .n NT.f_norm_arg, .a ⟨3748, false, [(.Token, 1), (.Token, 2)], [], [.new .Node]⟩]⟩,
  ⟨NT.f_rest_marg, 3753, [.t .tSTAR, .a ⟨3754, false, [(.Token, 1)], [], [.new .Node]⟩]⟩,
  ⟨NT.f_any_kwrest, 3761, [.n NT.f_kwrest, .a ⟨3762, false, [(.raw, 1)], [], [.copy 1]⟩]⟩,
  ⟨NT.f_any_kwrest, 3765, [.n NT.f_no_kwarg, .a ⟨3766, false, [(.raw, 1)], [], [.copy 1]⟩]⟩,
  ⟨NT.f_eq, 3771, [.a ⟨3771, false, [], [.flag .inArgdef false], [.new .None]⟩, .t .tEQL, .a ⟨3776, false, [(.raw, 2)], [], [.copy 2]⟩]⟩,
  ⟨NT.block_args_tail, 3781, [.n NT.f_block_kwarg, .t .tCOMMA, .n NT.f_kwrest, .n NT.opt_f_block_arg, .a ⟨3782, false, [(.BoxedNodeList, 1), (.NodeList, 3), (.NodeList, 4)], [], [.new .NodeList]⟩]⟩,
  ⟨NT.block_args_tail, 3793, [.n NT.f_block_kwarg, .n NT.opt_f_block_arg, .a ⟨3794, false, [(.BoxedNodeList, 1), (.NodeList, 2)], [], [.new .NodeList]⟩]⟩,
  ⟨NT.block_args_tail, 3800, [.n NT.f_any_kwrest, .n NT.opt_f_block_arg, .a ⟨3801, false, [(.BoxedNodeList, 1), (.NodeList, 2)], [], [.new .NodeList]⟩]⟩,
  ⟨NT.block_args_tail, 3807, [.n NT.f_block_arg, .a ⟨3808, false, [(.Node, 1)], [], [.new .NodeList]⟩]⟩,
  ⟨NT.opt_block_args_tail, 3814, [.t .tCOMMA, .n NT.block_args_tail, .a ⟨3815, false, [(.raw, 2)], [], [.copy 2]⟩]⟩,
  ⟨NT.opt_block_args_tail, 3819, [.a ⟨3819, false, [], [], [.new .NodeList]⟩]⟩,
  ⟨NT.excessed_comma, 3824, [.t .tCOMMA, .a ⟨3825, false, [(.raw, 1)], [], [.copy 1]⟩]⟩,
  ⟨NT.block_param, 3830, [.n NT.f_arg, .t .tCOMMA, .n NT.f_block_optarg, .t .tCOMMA, .n NT.f_rest_arg, .n NT.opt_block_args_tail, .a ⟨3831, false, [(.BoxedNodeList, 1), (.NodeList, 3), (.NodeList, 5), (.NodeList, 6)], [], [.new .NodeList]⟩]⟩,
  ⟨NT.block_param, 3844, [.n NT.f_arg, .t .tCOMMA, .n NT.f_block_optarg, .t .tCOMMA, .n NT.f_rest_arg, .t .tCOMMA, .n NT.f_arg, .n NT.opt_block_args_tail, .a ⟨3845, false, [(.BoxedNodeList, 1), (.NodeList, 3), (.NodeList, 5), (.NodeList, 7), (.NodeList, 8)], [], [.new .NodeList]⟩]⟩,
  ⟨NT.block_param, 3860, [.n NT.f_arg, .t .tCOMMA, .n NT.f_block_optarg, .n NT.opt_block_args_tail, .a ⟨3861, false, [(.BoxedNodeList, 1), (.NodeList, 3), (.NodeList, 4)], [], [.new .NodeList]⟩]⟩,
  ⟨NT.block_param, 3872, [.n NT.f_arg, .t .tCOMMA, .n NT.f_block_optarg, .t .tCOMMA, .n NT.f_arg, .n NT.opt_block_args_tail, .a ⟨3873, false, [(.BoxedNodeList, 1), (.NodeList, 3), (.NodeList, 5), (.NodeList, 6)], [], [.new .NodeList]⟩]⟩,
  ⟨NT.block_param, 3886, [.n NT.f_arg, .t .tCOMMA, .n NT.f_rest_arg, .n NT.opt_block_args_tail, .a ⟨3887, false, [(.BoxedNodeList, 1), (.NodeList, 3), (.NodeList, 4)], [], [.new .NodeList]⟩]⟩,
  ⟨NT.block_param, 3898, [.n NT.f_arg, .n NT.excessed_comma, .a ⟨3899, false, [(.raw, 1)], [], [.copy 1]⟩]⟩,
  ⟨NT.block_param, 3902, [.n NT.f_arg, .t .tCOMMA, .n NT.f_rest_arg, .t .tCOMMA, .n NT.f_arg, .n NT.opt_block_args_tail, .a ⟨3903, false, [(.BoxedNodeList, 1), (.NodeList, 3), (.NodeList, 5), (.NodeList, 6)], [], [.new .NodeList]⟩]⟩,
  ⟨NT.block_param, 3916, [.n NT.f_arg, .n NT.opt_block_args_tail, .a ⟨3917, false, [(.BoxedNodeList, 1), (.NodeList, 2)], [], [.new .NodeList]⟩]⟩,
  ⟨NT.block_param, 3934, [.n NT.f_block_optarg, .t .tCOMMA, .n NT.f_rest_arg, .n NT.opt_block_args_tail, .a ⟨3935, false, [(.BoxedNodeList, 1), (.NodeList, 3), (.NodeList, 4)], [], [.new .NodeList]⟩]⟩
]

/-- src/parser/parse.y:3946-4505. -/
def rules10 : List Rule := [
  ⟨NT.block_param, 3946, [.n NT.f_block_optarg, .t .tCOMMA, .n NT.f_rest_arg, .t .tCOMMA, .n NT.f_arg, .n NT.opt_block_args_tail, .a ⟨3947, false, [(.BoxedNodeList, 1), (.NodeList, 3), (.NodeList, 5), (.NodeList, 6)], [], [.new .NodeList]⟩]⟩,
  ⟨NT.block_param, 3960, [.n NT.f_block_optarg, .n NT.opt_block_args_tail, .a ⟨3961, false, [(.BoxedNodeList, 1), (.NodeList, 2)], [], [.new .NodeList]⟩]⟩,
  ⟨NT.block_param, 3967, [.n NT.f_block_optarg, .t .tCOMMA, .n NT.f_arg, .n NT.opt_block_args_tail, .a ⟨3968, false, [(.BoxedNodeList, 1), (.NodeList, 3), (.NodeList, 4)], [], [.new .NodeList]⟩]⟩,
  ⟨NT.block_param, 3979, [.n NT.f_rest_arg, .n NT.opt_block_args_tail, .a ⟨3980, false, [(.BoxedNodeList, 1), (.NodeList, 2)], [], [.new .NodeList]⟩]⟩,
  ⟨NT.block_param, 3986, [.n NT.f_rest_arg, .t .tCOMMA, .n NT.f_arg, .n NT.opt_block_args_tail, .a ⟨3987, false, [(.BoxedNodeList, 1), (.NodeList, 3), (.NodeList, 4)], [], [.new .NodeList]⟩]⟩,
  ⟨NT.block_param, 3998, [.n NT.block_args_tail, .a ⟨3999, false, [(.raw, 1)], [], [.copy 1]⟩]⟩,
  ⟨NT.opt_block_param, 4004, [.n NT.none, .a ⟨4005, false, [], [], [.new .MaybeNode]⟩]⟩,
  ⟨NT.opt_block_param, 4010, [.n NT.block_param_def, .a ⟨4011, false, [(.raw, 1)], [], [.copy 1]⟩]⟩,
  ⟨NT.block_param_def, 4017, [.t .tPIPE, .n NT.opt_bv_decl, .t .tPIPE, .a ⟨4018, false, [(.Token, 1), (.NodeList, 2), (.Token, 3)], [.touch [.num], .touch [.arg], .flag .inArgdef false], [.new .MaybeNode]⟩]⟩,
  ⟨NT.block_param_def, 4031, [.t .tPIPE, .n NT.block_param, .n NT.opt_bv_decl, .t .tPIPE, .a ⟨4032, false, [(.NodeList, 2), (.NodeList, 3), (.Token, 1), (.Token, 4)], [.touch [.num], .touch [.arg], .flag .inArgdef false], [.new .MaybeNode]⟩]⟩,
  ⟨NT.opt_bv_decl, 4051, [.n NT.opt_nl, .a ⟨4052, false, [], [], [.new .NodeList]⟩]⟩,
  ⟨NT.opt_bv_decl, 4055, [.n NT.opt_nl, .t .tSEMI, .n NT.bv_decls, .n NT.opt_nl, .a ⟨4056, false, [(.raw, 3)], [], [.copy 3]⟩]⟩,
  ⟨NT.bv_decls, 4061, [.n NT.bvar, .a ⟨4062, false, [(.Node, 1)], [], [.new .NodeList]⟩]⟩,
  ⟨NT.bv_decls, 4065, [.n NT.bv_decls, .t .tCOMMA, .n NT.bvar, .a ⟨4066, false, [(.BoxedNodeList, 1), (.Node, 3)], [], [.new .NodeList]⟩]⟩,
  ⟨NT.bvar, 4073, [.t .tIDENTIFIER, .a ⟨4074, false, [(.Token, 1)], [.touch [.env]], [.new .Node]⟩]⟩,
  ⟨NT.bvar, 4081, [.n NT.f_bad_arg, .a ⟨4082, false, [], [], [.new .None]⟩]⟩,
  ⟨NT.lambda, 4087, [.t .tLAMBDA, .a ⟨4088, false, [], [.envDynamic, .numPush false], [.new .Num]⟩, .a ⟨4094, false, [], [.dump, .flag .inLambda true], [.new .Context]⟩, .n NT.f_larglist, .a ⟨4099, false, [], [.cmdPush false], [.new .None]⟩, .n NT.lambda_body, .a ⟨4104, false, [(.Num, 2), (.Token, 1), (.MaybeBoxedNode, 4), (.LambdaBody, 6), (.Context, 3)], [.numPop, .envPop, .cmdPop, .restore .inLambda 3], [.new .Node]⟩]⟩,
  ⟨NT.f_larglist, 4132, [.t .tLPAREN2, .n NT.f_args, .n NT.opt_bv_decl, .t .tRPAREN, .a ⟨4133, false, [(.NodeList, 2), (.NodeList, 3), (.Token, 1), (.Token, 4)], [.flag .inArgdef false, .touch [.num]], [.new .MaybeNode]⟩]⟩,
  ⟨NT.f_larglist, 4148, [.n NT.f_args, .a ⟨4149, false, [(.NodeList, 1)], [.flag .inArgdef false, .touch [.num]], [.new .MaybeNode]⟩]⟩,
  ⟨NT.lambda_body, 4161, [.t .tLAMBEG, .a ⟨4162, false, [], [.dump, .flag .inLambda true], [.new .Context]⟩, .n NT.compstmt, .t .tRCURLY, .a ⟨4167, false, [(.Context, 2), (.Token, 1), (.MaybeBoxedNode, 3), (.Token, 4)], [.restore .inLambda 2], [.new .LambdaBody]⟩]⟩,
  ⟨NT.lambda_body, 4177, [.t .kDO_LAMBDA, .a ⟨4178, false, [], [.dump, .flag .inLambda true], [.new .Context]⟩, .n NT.bodystmt, .n NT.k_end, .a ⟨4183, false, [(.Context, 2), (.Token, 1), (.MaybeBoxedNode, 3), (.Token, 4)], [.restore .inLambda 2], [.new .LambdaBody]⟩]⟩,
  ⟨NT.do_block, 4195, [.n NT.k_do_block, .a ⟨4196, false, [], [.dump, .flag .inBlock true], [.new .Context]⟩, .n NT.do_body, .n NT.k_end, .a ⟨4201, false, [(.Context, 2), (.DoBody, 3), (.Token, 1), (.Token, 4)], [.restore .inBlock 2], [.new .DoBlock]⟩]⟩,
  ⟨NT.block_call, 4215, [.n NT.command, .n NT.do_block, .a ⟨4216, false, [(.DoBlock, 2), (.BoxedNode, 1)], [], [.new .Node]⟩]⟩,
  ⟨NT.block_call, 4228, [.n NT.block_call, .n NT.call_op2, .n NT.operation2, .n NT.opt_paren_args, .a ⟨4229, false, [(.OptParenArgs, 4), (.BoxedNode, 1), (.Token, 2), (.Token, 3)], [], [.new .Node]⟩]⟩,
  ⟨NT.block_call, 4242, [.n NT.block_call, .n NT.call_op2, .n NT.operation2, .n NT.opt_paren_args, .n NT.brace_block, .a ⟨4243, false, [(.OptParenArgs, 4), (.BoxedNode, 1), (.Token, 2), (.Token, 3), (.BraceBlock, 5)], [], [.new .Node]⟩]⟩,
  ⟨NT.block_call, 4265, [.n NT.block_call, .n NT.call_op2, .n NT.operation2, .n NT.command_args, .n NT.do_block, .a ⟨4266, false, [(.BoxedNode, 1), (.Token, 2), (.Token, 3), (.NodeList, 4), (.DoBlock, 5)], [], [.new .Node]⟩]⟩,
  ⟨NT.method_call, 4289, [.n NT.fcall, .n NT.paren_args, .a ⟨4290, false, [(.ParenArgs, 2), (.Token, 1)], [], [.new .Node]⟩]⟩,
  ⟨NT.method_call, 4304, [.n NT.primary_value, .n NT.call_op, .n NT.operation2, .n NT.opt_paren_args, .a ⟨4305, false, [(.OptParenArgs, 4), (.BoxedNode, 1), (.Token, 2), (.Token, 3)], [], [.new .Node]⟩]⟩,
  ⟨NT.method_call, 4319, [.n NT.primary_value, .t .tCOLON2, .n NT.operation2, .n NT.paren_args, .a ⟨4320, false, [(.ParenArgs, 4), (.BoxedNode, 1), (.Token, 2), (.Token, 3)], [], [.new .Node]⟩]⟩,
  ⟨NT.method_call, 4334, [.n NT.primary_value, .t .tCOLON2, .n NT.operation3, .a ⟨4335, false, [(.BoxedNode, 1), (.Token, 2), (.Token, 3)], [], [.new .Node]⟩]⟩,
  ⟨NT.method_call, 4347, [.n NT.primary_value, .n NT.call_op, .n NT.paren_args, .a ⟨4348, false, [(.ParenArgs, 3), (.BoxedNode, 1), (.Token, 2)], [], [.new .Node]⟩]⟩,
  ⟨NT.method_call, 4362, [.n NT.primary_value, .t .tCOLON2, .n NT.paren_args, .a ⟨4363, false, [(.ParenArgs, 3), (.BoxedNode, 1), (.Token, 2)], [], [.new .Node]⟩]⟩,
  ⟨NT.method_call, 4377, [.t .kSUPER, .n NT.paren_args, .a ⟨4378, false, [(.ParenArgs, 2), (.Token, 1)], [], [.new .Node]⟩]⟩,
  ⟨NT.method_call, 4391, [.t .kSUPER, .a ⟨4392, false, [(.Token, 1)], [], [.new .Node]⟩]⟩,
  ⟨NT.method_call, 4403, [.n NT.primary_value, .t .tLBRACK2, .n NT.opt_call_args, .n NT.rbracket, .a ⟨4404, false, [(.BoxedNode, 1), (.Token, 2), (.NodeList, 3), (.Token, 4)], [], [.new .Node]⟩]⟩,
  ⟨NT.brace_block, 4416, [.t .tLCURLY, .a ⟨4417, false, [], [.dump, .flag .inBlock true], [.new .Context]⟩, .n NT.brace_body, .t .tRCURLY, .a ⟨4422, false, [(.BraceBody, 3), (.Context, 2), (.Token, 1), (.Token, 4)], [.restore .inBlock 2], [.new .BraceBlock]⟩]⟩,
  ⟨NT.brace_block, 4435, [.n NT.k_do, .a ⟨4436, false, [], [.dump, .flag .inBlock true], [.new .Context]⟩, .n NT.do_body, .n NT.k_end, .a ⟨4441, false, [(.DoBody, 3), (.Context, 2), (.Token, 1), (.Token, 4)], [.restore .inBlock 2], [.new .BraceBlock]⟩]⟩,
  ⟨NT.brace_body, 4456, [.a ⟨4456, false, [], [.envDynamic, .numPush false], [.new .None]⟩, .n NT.opt_block_param, .n NT.compstmt, .a ⟨4462, false, [(.MaybeBoxedNode, 2), (.MaybeBoxedNode, 3)], [.numPop, .envPop], [.new .BraceBody]⟩]⟩,
  ⟨NT.do_body, 4481, [.a ⟨4481, false, [], [.envDynamic, .numPush false, .cmdPush false], [.new .None]⟩, .n NT.opt_block_param, .n NT.bodystmt, .a ⟨4488, false, [(.MaybeBoxedNode, 2), (.MaybeBoxedNode, 3)], [.numPop, .envPop, .cmdPop], [.new .DoBody]⟩]⟩,
  ⟨NT.case_args, 4505, [.n NT.arg_value, .a ⟨4506, false, [(.Node, 1)], [], [.new .NodeList]⟩]⟩
]

/-- src/parser/parse.y:4509-4905. -/
def rules11 : List Rule := [
  ⟨NT.case_args, 4509, [.t .tSTAR, .n NT.arg_value, .a ⟨4510, false, [(.Token, 1), (.BoxedNode, 2)], [], [.new .NodeList]⟩]⟩,
  ⟨NT.case_args, 4522, [.n NT.case_args, .t .tCOMMA, .n NT.arg_value, .a ⟨4523, false, [(.BoxedNodeList, 1), (.Node, 3)], [], [.new .NodeList]⟩]⟩,
  ⟨NT.case_args, 4528, [.n NT.case_args, .t .tCOMMA, .t .tSTAR, .n NT.arg_value, .a ⟨4529, false, [(.BoxedNodeList, 1), (.Token, 3), (.BoxedNode, 4)], [], [.new .NodeList]⟩]⟩,
  ⟨NT.case_body, 4537, [.n NT.k_when, .n NT.case_args, .n NT.«then», .n NT.compstmt, .n NT.cases, .a ⟨4540, false, [(.Token, 1), (.NodeList, 2), (.Token, 3), (.MaybeBoxedNode, 4), (.Cases, 5)], [], [.new .CaseBody]⟩]⟩,
  ⟨NT.cases, 4552, [.n NT.opt_else, .a ⟨4553, false, [(.OptElse, 1)], [], [.new .Cases]⟩]⟩,
  ⟨NT.cases, 4556, [.n NT.case_body, .a ⟨4557, false, [(.CaseBody, 1)], [], [.new .Cases]⟩]⟩,
  ⟨NT.p_case_body, 4563, [.t .kIN, .a ⟨4564, false, [], [.pvPush, .pkPush, .saveBool .inKwarg, .flag .inKwarg true], [.new .Bool]⟩, .n NT.p_top_expr, .n NT.«then», .a ⟨4574, false, [(.Bool, 2)], [.restore .inKwarg 2, .pvPop, .pkPop], [.new .None]⟩, .n NT.compstmt, .n NT.p_cases, .a ⟨4582, false, [(.PCases, 7), (.PTopExpr, 3), (.Token, 1), (.Token, 4), (.MaybeBoxedNode, 6)], [], [.new .PCaseBody]⟩]⟩,
  ⟨NT.p_cases, 4602, [.n NT.opt_else, .a ⟨4603, false, [(.OptElse, 1)], [], [.new .PCases]⟩]⟩,
  ⟨NT.p_cases, 4606, [.n NT.p_case_body, .a ⟨4607, false, [(.PCaseBody, 1)], [], [.new .PCases]⟩]⟩,
  ⟨NT.p_top_expr, 4613, [.n NT.p_top_expr_body, .a ⟨4614, false, [(.BoxedNode, 1)], [], [.new .PTopExpr]⟩]⟩,
  ⟨NT.p_top_expr, 4617, [.n NT.p_top_expr_body, .t .kIF_MOD, .n NT.expr_value, .a ⟨4618, false, [(.Token, 2), (.BoxedNode, 3), (.BoxedNode, 1)], [], [.new .PTopExpr]⟩]⟩,
  ⟨NT.p_top_expr, 4622, [.n NT.p_top_expr_body, .t .kUNLESS_MOD, .n NT.expr_value, .a ⟨4623, false, [(.Token, 2), (.BoxedNode, 3), (.BoxedNode, 1)], [], [.new .PTopExpr]⟩]⟩,
  ⟨NT.p_top_expr_body, 4629, [.n NT.p_expr, .a ⟨4630, false, [(.raw, 1)], [], [.copy 1]⟩]⟩,
  ⟨NT.p_top_expr_body, 4633, [.n NT.p_expr, .t .tCOMMA, .a ⟨4634, false, [(.Node, 1), (.Token, 2)], [], [.new .Node]⟩]⟩,
  ⟨NT.p_top_expr_body, 4644, [.n NT.p_expr, .t .tCOMMA, .n NT.p_args, .a ⟨4645, false, [(.MatchPatternWithTrailingComma, 3), (.Node, 1)], [], [.new .Node]⟩]⟩,
  ⟨NT.p_top_expr_body, 4656, [.n NT.p_find, .a ⟨4657, false, [(.NodeList, 1)], [], [.new .Node]⟩]⟩,
  ⟨NT.p_top_expr_body, 4662, [.n NT.p_args_tail, .a ⟨4663, false, [(.NodeList, 1)], [], [.new .Node]⟩]⟩,
  ⟨NT.p_top_expr_body, 4668, [.n NT.p_kwargs, .a ⟨4669, false, [(.NodeList, 1)], [], [.new .Node]⟩]⟩,
  ⟨NT.p_expr, 4676, [.n NT.p_as, .a ⟨4677, false, [(.raw, 1)], [], [.copy 1]⟩]⟩,
  ⟨NT.p_as, 4682, [.n NT.p_expr, .t .tASSOC, .n NT.p_variable, .a ⟨4683, false, [(.BoxedNode, 1), (.Token, 2), (.BoxedNode, 3)], [], [.new .Node]⟩]⟩,
  ⟨NT.p_as, 4692, [.n NT.p_alt, .a ⟨4693, false, [(.raw, 1)], [], [.copy 1]⟩]⟩,
  ⟨NT.p_alt, 4698, [.n NT.p_alt, .t .tPIPE, .n NT.p_expr_basic, .a ⟨4699, false, [(.BoxedNode, 1), (.Token, 2), (.BoxedNode, 3)], [], [.new .Node]⟩]⟩,
  ⟨NT.p_alt, 4708, [.n NT.p_expr_basic, .a ⟨4709, false, [(.raw, 1)], [], [.copy 1]⟩]⟩,
  ⟨NT.p_lparen, 4714, [.t .tLPAREN2, .a ⟨4715, false, [(.raw, 1)], [.pkPush], [.copy 1]⟩]⟩,
  ⟨NT.p_lbracket, 4721, [.t .tLBRACK2, .a ⟨4722, false, [(.raw, 1)], [.pkPush], [.copy 1]⟩]⟩,
  ⟨NT.p_expr_basic, 4728, [.n NT.p_value, .a ⟨4729, false, [(.raw, 1)], [], [.copy 1]⟩]⟩,
  ⟨NT.p_expr_basic, 4732, [.n NT.p_variable, .a ⟨4733, false, [(.raw, 1)], [], [.copy 1]⟩]⟩,
  ⟨NT.p_expr_basic, 4736, [.n NT.p_const, .n NT.p_lparen, .n NT.p_args, .n NT.rparen, .a ⟨4737, false, [(.MatchPatternWithTrailingComma, 3), (.BoxedNode, 1), (.Token, 2), (.Token, 4)], [.pkPop], [.new .Node]⟩]⟩,
  ⟨NT.p_expr_basic, 4750, [.n NT.p_const, .n NT.p_lparen, .n NT.p_find, .n NT.rparen, .a ⟨4751, false, [(.NodeList, 3), (.BoxedNode, 1), (.Token, 2), (.Token, 4)], [.pkPop], [.new .Node]⟩]⟩,
  ⟨NT.p_expr_basic, 4763, [.n NT.p_const, .n NT.p_lparen, .n NT.p_kwargs, .n NT.rparen, .a ⟨4764, false, [(.NodeList, 3), (.BoxedNode, 1), (.Token, 2), (.Token, 4)], [.pkPop], [.new .Node]⟩]⟩,
  ⟨NT.p_expr_basic, 4776, [.n NT.p_const, .t .tLPAREN2, .n NT.rparen, .a ⟨4777, false, [(.Token, 2), (.Token, 3), (.BoxedNode, 1)], [], [.new .Node]⟩]⟩,
  ⟨NT.p_expr_basic, 4795, [.n NT.p_const, .n NT.p_lbracket, .n NT.p_args, .n NT.rbracket, .a ⟨4796, false, [(.MatchPatternWithTrailingComma, 3), (.BoxedNode, 1), (.Token, 2), (.Token, 4)], [.pkPop], [.new .Node]⟩]⟩,
  ⟨NT.p_expr_basic, 4809, [.n NT.p_const, .n NT.p_lbracket, .n NT.p_find, .n NT.rbracket, .a ⟨4810, false, [(.NodeList, 3), (.BoxedNode, 1), (.Token, 2), (.Token, 4)], [.pkPop], [.new .Node]⟩]⟩,
  ⟨NT.p_expr_basic, 4822, [.n NT.p_const, .n NT.p_lbracket, .n NT.p_kwargs, .n NT.rbracket, .a ⟨4823, false, [(.NodeList, 3), (.BoxedNode, 1), (.Token, 2), (.Token, 4)], [.pkPop], [.new .Node]⟩]⟩,
  ⟨NT.p_expr_basic, 4835, [.n NT.p_const, .t .tLBRACK2, .n NT.rbracket, .a ⟨4836, false, [(.Token, 2), (.Token, 3), (.BoxedNode, 1)], [], [.new .Node]⟩]⟩,
  ⟨NT.p_expr_basic, 4854, [.t .tLBRACK, .n NT.p_args, .n NT.rbracket, .a ⟨4855, false, [(.MatchPatternWithTrailingComma, 2), (.Token, 1), (.Token, 3)], [], [.new .Node]⟩]⟩,
  ⟨NT.p_expr_basic, 4866, [.t .tLBRACK, .n NT.p_find, .n NT.rbracket, .a ⟨4867, false, [(.Token, 1), (.NodeList, 2), (.Token, 3)], [], [.new .Node]⟩]⟩,
  ⟨NT.p_expr_basic, 4876, [.t .tLBRACK, .n NT.rbracket, .a ⟨4877, false, [(.Token, 1), (.Token, 2)], [], [.new .Node]⟩]⟩,
  ⟨NT.p_expr_basic, 4887, [.t .tLBRACE, .a ⟨4888, false, [], [.pkPush, .saveBool .inKwarg, .flag .inKwarg false], [.new .Bool]⟩, .n NT.p_kwargs, .n NT.rbrace, .a ⟨4894, false, [(.Bool, 2), (.Token, 1), (.NodeList, 3), (.Token, 4)], [.pkPop, .restore .inKwarg 2], [.new .Node]⟩]⟩,
  ⟨NT.p_expr_basic, 4905, [.t .tLBRACE, .n NT.rbrace, .a ⟨4906, false, [(.Token, 1), (.Token, 2)], [], [.new .Node]⟩]⟩
]

/-- src/parser/parse.y:4915-5277. -/
def rules12 : List Rule := [
  ⟨NT.p_expr_basic, 4915, [.t .tLPAREN, .a ⟨4916, false, [], [.pkPush], [.new .None]⟩, .n NT.p_expr, .n NT.rparen, .a ⟨4921, false, [(.Token, 1), (.BoxedNode, 3), (.Token, 4)], [.pkPop], [.new .Node]⟩]⟩,
  ⟨NT.p_args, 4933, [.n NT.p_expr, .a ⟨4934, false, [(.Node, 1)], [], [.new .MatchPatternWithTrailingComma]⟩]⟩,
  ⟨NT.p_args, 4942, [.n NT.p_args_head, .a ⟨4943, false, [(.raw, 1)], [], [.copy 1]⟩]⟩,
  ⟨NT.p_args, 4946, [.n NT.p_args_head, .n NT.p_arg, .a ⟨4947, false, [(.MatchPatternWithTrailingComma, 1), (.Node, 2)], [], [.new .MatchPatternWithTrailingComma]⟩]⟩,
  ⟨NT.p_args, 4958, [.n NT.p_args_head, .n NT.p_rest, .a ⟨4959, false, [(.MatchPatternWithTrailingComma, 1), (.Node, 2)], [], [.new .MatchPatternWithTrailingComma]⟩]⟩,
  ⟨NT.p_args, 4971, [.n NT.p_args_head, .n NT.p_rest, .t .tCOMMA, .n NT.p_args_post, .a ⟨4972, false, [(.MatchPatternWithTrailingComma, 1), (.Node, 2), (.NodeList, 4)], [], [.new .MatchPatternWithTrailingComma]⟩]⟩,
  ⟨NT.p_args, 4988, [.n NT.p_args_tail, .a ⟨4989, false, [(.NodeList, 1)], [], [.new .MatchPatternWithTrailingComma]⟩]⟩,
  ⟨NT.p_args_head, 4999, [.n NT.p_arg, .t .tCOMMA, .a ⟨5000, false, [(.Node, 1), (.Token, 2)], [], [.new .MatchPatternWithTrailingComma]⟩]⟩,
  ⟨NT.p_args_head, 5008, [.n NT.p_args_head, .n NT.p_arg, .t .tCOMMA, .a ⟨5009, false, [(.MatchPatternWithTrailingComma, 1), (.Node, 2), (.Token, 3)], [], [.new .MatchPatternWithTrailingComma]⟩]⟩,
  ⟨NT.p_args_tail, 5022, [.n NT.p_rest, .a ⟨5023, false, [(.Node, 1)], [], [.new .NodeList]⟩]⟩,
  ⟨NT.p_args_tail, 5026, [.n NT.p_rest, .t .tCOMMA, .n NT.p_args_post, .a ⟨5027, false, [(.NodeList, 3), (.Node, 1)], [], [.new .NodeList]⟩]⟩,
  ⟨NT.p_find, 5037, [.n NT.p_rest, .t .tCOMMA, .n NT.p_args_post, .t .tCOMMA, .n NT.p_rest, .a ⟨5038, false, [(.NodeList, 3), (.Node, 1), (.Node, 5)], [], [.new .NodeList]⟩]⟩,
  ⟨NT.p_rest, 5050, [.t .tSTAR, .t .tIDENTIFIER, .a ⟨5051, false, [(.Token, 1), (.Token, 2)], [.touch [.env, .pv]], [.new .Node]⟩]⟩,
  ⟨NT.p_rest, 5056, [.t .tSTAR, .a ⟨5057, false, [(.Token, 1)], [.touch [.env, .pv]], [.new .Node]⟩]⟩,
  ⟨NT.p_args_post, 5064, [.n NT.p_arg, .a ⟨5065, false, [(.Node, 1)], [], [.new .NodeList]⟩]⟩,
  ⟨NT.p_args_post, 5068, [.n NT.p_args_post, .t .tCOMMA, .n NT.p_arg, .a ⟨5069, false, [(.BoxedNodeList, 1), (.Node, 3)], [], [.new .NodeList]⟩]⟩,
  ⟨NT.p_arg, 5076, [.n NT.p_expr, .a ⟨5077, false, [(.raw, 1)], [], [.copy 1]⟩]⟩,
  ⟨NT.p_kwargs, 5082, [.n NT.p_kwarg, .t .tCOMMA, .n NT.p_any_kwrest, .a ⟨5083, false, [(.BoxedNodeList, 1), (.NodeList, 3)], [], [.new .NodeList]⟩]⟩,
  ⟨NT.p_kwargs, 5089, [.n NT.p_kwarg, .a ⟨5090, false, [(.raw, 1)], [], [.copy 1]⟩]⟩,
  ⟨NT.p_kwargs, 5093, [.n NT.p_kwarg, .t .tCOMMA, .a ⟨5094, false, [(.raw, 1)], [], [.copy 1]⟩]⟩,
  ⟨NT.p_kwargs, 5097, [.n NT.p_any_kwrest, .a ⟨5098, false, [(.raw, 1)], [], [.copy 1]⟩]⟩,
  ⟨NT.p_kwarg, 5103, [.n NT.p_kw, .a ⟨5104, false, [(.Node, 1)], [], [.new .NodeList]⟩]⟩,
  ⟨NT.p_kwarg, 5107, [.n NT.p_kwarg, .t .tCOMMA, .n NT.p_kw, .a ⟨5108, false, [(.BoxedNodeList, 1), (.Node, 3)], [], [.new .NodeList]⟩]⟩,
  ⟨NT.p_kw, 5115, [.n NT.p_kw_label, .n NT.p_expr, .a ⟨5116, false, [(.PKwLabel, 1), (.BoxedNode, 2)], [.touch [.pk]], [.new .Node]⟩]⟩,
  ⟨NT.p_kw, 5124, [.n NT.p_kw_label, .a ⟨5125, false, [(.PKwLabel, 1)], [.touch [.env, .pv]], [.new .Node]⟩]⟩,
  ⟨NT.p_kw_label, 5134, [.t .tLABEL, .a ⟨5135, false, [(.Token, 1)], [], [.new .PKwLabel]⟩]⟩,
  ⟨NT.p_kw_label, 5140, [.t .tSTRING_BEG, .n NT.string_contents, .t .tLABEL_END, .a ⟨5141, false, [(.Token, 1), (.NodeList, 2), (.Token, 3)], [], [.new .PKwLabel]⟩]⟩,
  ⟨NT.p_kwrest, 5148, [.n NT.kwrest_mark, .t .tIDENTIFIER, .a ⟨5149, false, [(.Token, 1), (.Token, 2)], [.touch [.env, .pv]], [.new .NodeList]⟩]⟩,
  ⟨NT.p_kwrest, 5161, [.n NT.kwrest_mark, .a ⟨5162, false, [(.Token, 1)], [.touch [.env, .pv]], [.new .NodeList]⟩]⟩,
  ⟨NT.p_kwnorest, 5176, [.n NT.kwrest_mark, .t .kNIL, .a ⟨5177, false, [(.Token, 1), (.Token, 2)], [], [.new .NoKwRest]⟩]⟩,
  ⟨NT.p_any_kwrest, 5187, [.n NT.p_kwrest, .a ⟨5188, false, [(.raw, 1)], [], [.copy 1]⟩]⟩,
  ⟨NT.p_any_kwrest, 5191, [.n NT.p_kwnorest, .a ⟨5192, false, [(.NoKwRest, 1)], [], [.new .NodeList]⟩]⟩,
  ⟨NT.p_value, 5207, [.n NT.p_primitive, .a ⟨5208, false, [(.raw, 1)], [], [.copy 1]⟩]⟩,
  ⟨NT.p_value, 5211, [.n NT.p_primitive, .t .tDOT2, .n NT.p_primitive, .a ⟨5212, false, [(.BoxedNode, 1), (.BoxedNode, 3), (.Token, 2)], [], [.new .Node]⟩]⟩,
  ⟨NT.p_value, 5227, [.n NT.p_primitive, .t .tDOT3, .n NT.p_primitive, .a ⟨5228, false, [(.BoxedNode, 1), (.BoxedNode, 3), (.Token, 2)], [], [.new .Node]⟩]⟩,
  ⟨NT.p_value, 5243, [.n NT.p_primitive, .t .tDOT2, .a ⟨5244, false, [(.BoxedNode, 1), (.Token, 2)], [], [.new .Node]⟩]⟩,
  ⟨NT.p_value, 5256, [.n NT.p_primitive, .t .tDOT3, .a ⟨5257, false, [(.BoxedNode, 1), (.Token, 2)], [], [.new .Node]⟩]⟩,
  ⟨NT.p_value, 5269, [.n NT.p_var_ref, .a ⟨5270, false, [(.raw, 1)], [], [.copy 1]⟩]⟩,
  ⟨NT.p_value, 5273, [.n NT.p_expr_ref, .a ⟨5274, false, [(.raw, 1)], [], [.copy 1]⟩]⟩,
  ⟨NT.p_value, 5277, [.n NT.p_const, .a ⟨5278, false, [(.raw, 1)], [], [.copy 1]⟩]⟩
]

/-- src/parser/parse.y:5281-5606. -/
def rules13 : List Rule := [
  ⟨NT.p_value, 5281, [.t .tBDOT2, .n NT.p_primitive, .a ⟨5282, false, [(.BoxedNode, 2), (.Token, 1)], [], [.new .Node]⟩]⟩,
  ⟨NT.p_value, 5294, [.t .tBDOT3, .n NT.p_primitive, .a ⟨5295, false, [(.BoxedNode, 2), (.Token, 1)], [], [.new .Node]⟩]⟩,
  ⟨NT.p_primitive, 5309, [.n NT.literal, .a ⟨5310, false, [(.raw, 1)], [], [.copy 1]⟩]⟩,
  ⟨NT.p_primitive, 5313, [.n NT.strings, .a ⟨5314, false, [(.raw, 1)], [], [.copy 1]⟩]⟩,
  ⟨NT.p_primitive, 5317, [.n NT.xstring, .a ⟨5318, false, [(.raw, 1)], [], [.copy 1]⟩]⟩,
  ⟨NT.p_primitive, 5321, [.n NT.regexp, .a ⟨5322, false, [(.raw, 1)], [], [.copy 1]⟩]⟩,
  ⟨NT.p_primitive, 5325, [.n NT.words, .a ⟨5326, false, [(.raw, 1)], [], [.copy 1]⟩]⟩,
  ⟨NT.p_primitive, 5329, [.n NT.qwords, .a ⟨5330, false, [(.raw, 1)], [], [.copy 1]⟩]⟩,
  ⟨NT.p_primitive, 5333, [.n NT.symbols, .a ⟨5334, false, [(.raw, 1)], [], [.copy 1]⟩]⟩,
  ⟨NT.p_primitive, 5337, [.n NT.qsymbols, .a ⟨5338, false, [(.raw, 1)], [], [.copy 1]⟩]⟩,
  ⟨NT.p_primitive, 5341, [.n NT.keyword_variable, .a ⟨5342, false, [(.BoxedNode, 1)], [.touch [.env, .num]], [.new .Node]⟩]⟩,
  ⟨NT.p_primitive, 5347, [.n NT.lambda, .a ⟨5348, false, [(.raw, 1)], [], [.copy 1]⟩]⟩,
  ⟨NT.p_variable, 5353, [.t .tIDENTIFIER, .a ⟨5354, false, [(.Token, 1)], [.touch [.env], .touch [.env, .pv]], [.new .Node]⟩]⟩,
  ⟨NT.p_var_ref, 5363, [.t .tCARET, .t .tIDENTIFIER, .a ⟨5364, false, [(.Token, 2), (.Token, 1)], [.touch [.env, .num]], [.new .Node]⟩]⟩,
  ⟨NT.p_var_ref, 5380, [.t .tCARET, .n NT.nonlocal_var, .a ⟨5381, false, [(.BoxedNode, 2), (.Token, 1)], [.touch [.env, .num]], [.new .Node]⟩]⟩,
  ⟨NT.p_expr_ref, 5392, [.t .tCARET, .t .tLPAREN, .n NT.expr_value, .t .tRPAREN, .a ⟨5393, false, [(.Token, 2), (.BoxedNode, 3), (.Token, 4), (.Token, 1)], [], [.new .Node]⟩]⟩,
  ⟨NT.p_const, 5408, [.t .tCOLON3, .n NT.cname, .a ⟨5409, false, [(.Token, 1), (.Token, 2)], [], [.new .Node]⟩]⟩,
  ⟨NT.p_const, 5414, [.n NT.p_const, .t .tCOLON2, .n NT.cname, .a ⟨5415, false, [(.BoxedNode, 1), (.Token, 2), (.Token, 3)], [], [.new .Node]⟩]⟩,
  ⟨NT.p_const, 5424, [.t .tCONSTANT, .a ⟨5425, false, [(.Token, 1)], [], [.new .Node]⟩]⟩,
  ⟨NT.opt_rescue, 5430, [.n NT.k_rescue, .n NT.exc_list, .n NT.exc_var, .n NT.«then», .n NT.compstmt, .n NT.opt_rescue, .a ⟨5433, false, [(.ExcVar, 3), (.NodeList, 2), (.Token, 1), (.Token, 4), (.MaybeBoxedNode, 5), (.NodeList, 6)], [], [.new .NodeList]⟩]⟩,
  ⟨NT.opt_rescue, 5458, [.n NT.none, .a ⟨5459, false, [], [], [.new .NodeList]⟩]⟩,
  ⟨NT.exc_list, 5464, [.n NT.arg_value, .a ⟨5465, false, [(.Node, 1)], [], [.new .NodeList]⟩]⟩,
  ⟨NT.exc_list, 5468, [.n NT.mrhs, .a ⟨5469, false, [(.raw, 1)], [], [.copy 1]⟩]⟩,
  ⟨NT.exc_list, 5472, [.n NT.none, .a ⟨5473, false, [], [], [.new .NodeList]⟩]⟩,
  ⟨NT.exc_var, 5478, [.t .tASSOC, .n NT.lhs, .a ⟨5479, false, [(.Token, 1), (.BoxedNode, 2)], [], [.new .ExcVar]⟩]⟩,
  ⟨NT.exc_var, 5484, [.n NT.none, .a ⟨5485, false, [], [], [.new .ExcVar]⟩]⟩,
  ⟨NT.opt_ensure, 5490, [.n NT.k_ensure, .n NT.compstmt, .a ⟨5491, false, [(.Token, 1), (.MaybeBoxedNode, 2)], [], [.new .OptEnsure]⟩]⟩,
  ⟨NT.opt_ensure, 5496, [.n NT.none, .a ⟨5497, false, [], [], [.new .OptEnsure]⟩]⟩,
  ⟨NT.literal, 5502, [.n NT.numeric, .a ⟨5503, false, [(.raw, 1)], [], [.copy 1]⟩]⟩,
  ⟨NT.literal, 5506, [.n NT.symbol, .a ⟨5507, false, [(.raw, 1)], [], [.copy 1]⟩]⟩,
  ⟨NT.strings, 5512, [.n NT.string, .a ⟨5513, false, [(.NodeList, 1)], [], [.new .Node]⟩]⟩,
  ⟨NT.string, 5524, [.t .tCHAR, .a ⟨5525, false, [(.Token, 1)], [], [.new .NodeList]⟩]⟩,
  ⟨NT.string, 5534, [.n NT.string1, .a ⟨5535, false, [(.Node, 1)], [], [.new .NodeList]⟩]⟩,
  ⟨NT.string, 5538, [.n NT.string, .n NT.string1, .a ⟨5539, false, [(.BoxedNodeList, 1), (.Node, 2)], [], [.new .NodeList]⟩]⟩,
  ⟨NT.string1, 5546, [.t .tSTRING_BEG, .n NT.string_contents, .t .tSTRING_END, .a ⟨5547, false, [(.Token, 1), (.NodeList, 2), (.Token, 3)], [], [.new .Node]⟩]⟩,
  ⟨NT.xstring, 5560, [.t .tXSTRING_BEG, .n NT.xstring_contents, .t .tSTRING_END, .a ⟨5561, false, [(.Token, 1), (.NodeList, 2), (.Token, 3)], [], [.new .Node]⟩]⟩,
  ⟨NT.regexp, 5574, [.t .tREGEXP_BEG, .n NT.regexp_contents, .t .tREGEXP_END, .a ⟨5575, false, [(.Token, 3), (.Token, 1), (.NodeList, 2)], [], [.new .Node]⟩]⟩,
  ⟨NT.words, 5589, [.t .tWORDS_BEG, .t .tSPACE, .n NT.word_list, .t .tSTRING_END, .a ⟨5590, false, [(.Token, 1), (.NodeList, 3), (.Token, 4)], [], [.new .Node]⟩]⟩,
  ⟨NT.word_list, 5602, [.a ⟨5602, false, [], [], [.new .NodeList]⟩]⟩,
  ⟨NT.word_list, 5606, [.n NT.word_list, .n NT.word, .t .tSPACE, .a ⟨5607, false, [(.BoxedNodeList, 1), (.NodeList, 2)], [], [.new .NodeList]⟩]⟩
]

/-- src/parser/parse.y:5616-5893. -/
def rules14 : List Rule := [
  ⟨NT.word, 5616, [.n NT.string_content, .a ⟨5617, false, [(.Node, 1)], [], [.new .NodeList]⟩]⟩,
  ⟨NT.word, 5620, [.n NT.word, .n NT.string_content, .a ⟨5621, false, [(.BoxedNodeList, 1), (.Node, 2)], [], [.new .NodeList]⟩]⟩,
  ⟨NT.symbols, 5628, [.t .tSYMBOLS_BEG, .t .tSPACE, .n NT.symbol_list, .t .tSTRING_END, .a ⟨5629, false, [(.Token, 1), (.NodeList, 3), (.Token, 4)], [], [.new .Node]⟩]⟩,
  ⟨NT.symbol_list, 5641, [.a ⟨5641, false, [], [], [.new .NodeList]⟩]⟩,
  ⟨NT.symbol_list, 5644, [.n NT.symbol_list, .n NT.word, .t .tSPACE, .a ⟨5645, false, [(.BoxedNodeList, 1), (.NodeList, 2)], [], [.new .NodeList]⟩]⟩,
  ⟨NT.qwords, 5654, [.t .tQWORDS_BEG, .t .tSPACE, .n NT.qword_list, .t .tSTRING_END, .a ⟨5655, false, [(.Token, 1), (.NodeList, 3), (.Token, 4)], [], [.new .Node]⟩]⟩,
  ⟨NT.qsymbols, 5666, [.t .tQSYMBOLS_BEG, .t .tSPACE, .n NT.qsym_list, .t .tSTRING_END, .a ⟨5667, false, [(.Token, 1), (.NodeList, 3), (.Token, 4)], [], [.new .Node]⟩]⟩,
  ⟨NT.qword_list, 5679, [.a ⟨5679, false, [], [], [.new .NodeList]⟩]⟩,
  ⟨NT.qword_list, 5682, [.n NT.qword_list, .t .tSTRING_CONTENT, .t .tSPACE, .a ⟨5683, false, [(.BoxedNodeList, 1), (.Token, 2)], [], [.new .NodeList]⟩]⟩,
  ⟨NT.qsym_list, 5693, [.a ⟨5693, false, [], [], [.new .NodeList]⟩]⟩,
  ⟨NT.qsym_list, 5696, [.n NT.qsym_list, .t .tSTRING_CONTENT, .t .tSPACE, .a ⟨5697, false, [(.BoxedNodeList, 1), (.Token, 2)], [], [.new .NodeList]⟩]⟩,
  ⟨NT.string_contents, 5707, [.a ⟨5707, false, [], [], [.new .NodeList]⟩]⟩,
  ⟨NT.string_contents, 5710, [.n NT.string_contents, .n NT.string_content, .a ⟨5711, false, [(.BoxedNodeList, 1), (.Node, 2)], [], [.new .NodeList]⟩]⟩,
  ⟨NT.xstring_contents, 5719, [.a ⟨5719, false, [], [], [.new .NodeList]⟩]⟩,
  ⟨NT.xstring_contents, 5722, [.n NT.xstring_contents, .n NT.string_content, .a ⟨5723, false, [(.BoxedNodeList, 1), (.Node, 2)], [], [.new .NodeList]⟩]⟩,
  ⟨NT.regexp_contents, 5731, [.a ⟨5731, false, [], [], [.new .NodeList]⟩]⟩,
  ⟨NT.regexp_contents, 5734, [.n NT.regexp_contents, .n NT.string_content, .a ⟨5735, false, [(.BoxedNodeList, 1), (.Node, 2)], [], [.new .NodeList]⟩]⟩,
  ⟨NT.string_content, 5742, [.t .tSTRING_CONTENT, .a ⟨5743, false, [(.Token, 1)], [], [.new .Node]⟩]⟩,
  ⟨NT.string_content, 5748, [.t .tSTRING_DVAR, .a ⟨5749, false, [], [], [.new .MaybeStrTerm]⟩, .n NT.string_dvar, .a ⟨5754, false, [(.MaybeStrTerm, 2), (.raw, 3)], [], [.copy 3]⟩]⟩,
  ⟨NT.string_content, 5758, [.t .tSTRING_DBEG, .a ⟨5759, false, [], [.cmdPush false, .condPush false], [.new .None]⟩, .a ⟨5764, false, [], [], [.new .MaybeStrTerm]⟩, .a ⟨5767, false, [], [], [.new .Num]⟩, .a ⟨5771, false, [], [], [.new .Num]⟩, .a ⟨5775, false, [], [], [.new .Num]⟩, .n NT.compstmt, .t .tSTRING_DEND, .a ⟨5780, false, [(.MaybeStrTerm, 3), (.Num, 4), (.Num, 5), (.Num, 6), (.Token, 1), (.MaybeBoxedNode, 7), (.Token, 8)], [.condPop, .cmdPop], [.new .Node]⟩]⟩,
  ⟨NT.string_dvar, 5799, [.t .tGVAR, .a ⟨5800, false, [(.Token, 1)], [], [.new .Node]⟩]⟩,
  ⟨NT.string_dvar, 5803, [.t .tIVAR, .a ⟨5804, false, [(.Token, 1)], [], [.new .Node]⟩]⟩,
  ⟨NT.string_dvar, 5808, [.t .tCVAR, .a ⟨5809, false, [(.Token, 1)], [], [.new .Node]⟩]⟩,
  ⟨NT.string_dvar, 5812, [.n NT.backref, .a ⟨5813, false, [(.raw, 1)], [], [.copy 1]⟩]⟩,
  ⟨NT.symbol, 5818, [.n NT.ssym, .a ⟨5818, false, [(.raw, 1)], [], [.copy 1]⟩]⟩,
  ⟨NT.symbol, 5819, [.n NT.dsym, .a ⟨5819, false, [(.raw, 1)], [], [.copy 1]⟩]⟩,
  ⟨NT.ssym, 5822, [.t .tSYMBEG, .n NT.sym, .a ⟨5823, false, [(.Token, 1), (.Token, 2)], [], [.new .Node]⟩]⟩,
  ⟨NT.sym, 5831, [.n NT.fname, .a ⟨5831, false, [(.raw, 1)], [], [.copy 1]⟩]⟩,
  ⟨NT.sym, 5832, [.t .tIVAR, .a ⟨5832, false, [(.raw, 1)], [], [.copy 1]⟩]⟩,
  ⟨NT.sym, 5833, [.t .tGVAR, .a ⟨5833, false, [(.raw, 1)], [], [.copy 1]⟩]⟩,
  ⟨NT.sym, 5834, [.t .tCVAR, .a ⟨5834, false, [(.raw, 1)], [], [.copy 1]⟩]⟩,
  ⟨NT.dsym, 5837, [.t .tSYMBEG, .n NT.string_contents, .t .tSTRING_END, .a ⟨5838, false, [(.Token, 1), (.NodeList, 2), (.Token, 3)], [], [.new .Node]⟩]⟩,
  ⟨NT.numeric, 5846, [.n NT.simple_numeric, .a ⟨5847, false, [(.raw, 1)], [], [.copy 1]⟩]⟩,
  ⟨NT.numeric, 5850, [.t .tUMINUS_NUM, .n NT.simple_numeric, .a ⟨5851, false, [(.Token, 1), (.BoxedNode, 2)], [], [.new .Node]⟩]⟩,
  ⟨NT.simple_numeric, 5861, [.t .tINTEGER, .a ⟨5862, false, [(.Token, 1)], [], [.new .Node]⟩]⟩,
  ⟨NT.simple_numeric, 5867, [.t .tFLOAT, .a ⟨5868, false, [(.Token, 1)], [], [.new .Node]⟩]⟩,
  ⟨NT.simple_numeric, 5873, [.t .tRATIONAL, .a ⟨5874, false, [(.Token, 1)], [], [.new .Node]⟩]⟩,
  ⟨NT.simple_numeric, 5879, [.t .tIMAGINARY, .a ⟨5880, false, [(.Token, 1)], [], [.new .Node]⟩]⟩,
  ⟨NT.nonlocal_var, 5887, [.t .tIVAR, .a ⟨5888, false, [(.Token, 1)], [], [.new .Node]⟩]⟩,
  ⟨NT.nonlocal_var, 5893, [.t .tGVAR, .a ⟨5894, false, [(.Token, 1)], [], [.new .Node]⟩]⟩
]

/-- src/parser/parse.y:5899-6228. -/
def rules15 : List Rule := [
  ⟨NT.nonlocal_var, 5899, [.t .tCVAR, .a ⟨5900, false, [(.Token, 1)], [], [.new .Node]⟩]⟩,
  ⟨NT.user_variable, 5907, [.t .tIDENTIFIER, .a ⟨5908, false, [(.Token, 1)], [], [.new .Node]⟩]⟩,
  ⟨NT.user_variable, 5913, [.t .tIVAR, .a ⟨5914, false, [(.Token, 1)], [], [.new .Node]⟩]⟩,
  ⟨NT.user_variable, 5919, [.t .tGVAR, .a ⟨5920, false, [(.Token, 1)], [], [.new .Node]⟩]⟩,
  ⟨NT.user_variable, 5925, [.t .tCONSTANT, .a ⟨5926, false, [(.Token, 1)], [], [.new .Node]⟩]⟩,
  ⟨NT.user_variable, 5931, [.t .tCVAR, .a ⟨5932, false, [(.Token, 1)], [], [.new .Node]⟩]⟩,
  ⟨NT.keyword_variable, 5939, [.t .kNIL, .a ⟨5940, false, [(.Token, 1)], [], [.new .Node]⟩]⟩,
  ⟨NT.keyword_variable, 5945, [.t .kSELF, .a ⟨5946, false, [(.Token, 1)], [], [.new .Node]⟩]⟩,
  ⟨NT.keyword_variable, 5951, [.t .kTRUE, .a ⟨5952, false, [(.Token, 1)], [], [.new .Node]⟩]⟩,
  ⟨NT.keyword_variable, 5957, [.t .kFALSE, .a ⟨5958, false, [(.Token, 1)], [], [.new .Node]⟩]⟩,
  ⟨NT.keyword_variable, 5963, [.t .k__FILE__, .a ⟨5964, false, [(.Token, 1)], [], [.new .Node]⟩]⟩,
  ⟨NT.keyword_variable, 5969, [.t .k__LINE__, .a ⟨5970, false, [(.Token, 1)], [], [.new .Node]⟩]⟩,
  ⟨NT.keyword_variable, 5975, [.t .k__ENCODING__, .a ⟨5976, false, [(.Token, 1)], [], [.new .Node]⟩]⟩,
  ⟨NT.var_ref, 5983, [.n NT.user_variable, .a ⟨5984, false, [(.BoxedNode, 1)], [.touch [.env, .num]], [.new .Node]⟩]⟩,
  ⟨NT.var_ref, 5989, [.n NT.keyword_variable, .a ⟨5990, false, [(.BoxedNode, 1)], [.touch [.env, .num]], [.new .Node]⟩]⟩,
  ⟨NT.var_lhs, 5997, [.n NT.user_variable, .a ⟨5998, false, [(.BoxedNode, 1)], [.touch [.env]], [.new .Node]⟩]⟩,
  ⟨NT.var_lhs, 6003, [.n NT.keyword_variable, .a ⟨6004, false, [(.BoxedNode, 1)], [.touch [.env]], [.new .Node]⟩]⟩,
  ⟨NT.backref, 6011, [.t .tNTH_REF, .a ⟨6012, false, [(.Token, 1)], [], [.new .Node]⟩]⟩,
  ⟨NT.backref, 6017, [.t .tBACK_REF, .a ⟨6018, false, [(.Token, 1)], [], [.new .Node]⟩]⟩,
  ⟨NT.superclass, 6025, [.t .tLT, .a ⟨6026, false, [], [], [.new .None]⟩, .n NT.expr_value, .n NT.term, .a ⟨6032, false, [(.Token, 1), (.BoxedNode, 3)], [], [.new .Superclass]⟩]⟩,
  ⟨NT.superclass, 6040, [.a ⟨6040, false, [], [], [.new .Superclass]⟩]⟩,
  ⟨NT.f_opt_paren_args, 6045, [.n NT.f_paren_args, .a ⟨6046, false, [(.raw, 1)], [], [.copy 1]⟩]⟩,
  ⟨NT.f_opt_paren_args, 6049, [.n NT.none, .a ⟨6050, false, [], [.flag .inArgdef false], [.new .MaybeNode]⟩]⟩,
  ⟨NT.f_paren_args, 6056, [.t .tLPAREN2, .n NT.f_args, .n NT.rparen, .a ⟨6057, false, [(.Token, 1), (.NodeList, 2), (.Token, 3)], [.flag .inArgdef false], [.new .MaybeNode]⟩]⟩,
  ⟨NT.f_arglist, 6068, [.n NT.f_paren_args, .a ⟨6069, false, [(.raw, 1)], [], [.copy 1]⟩]⟩,
  ⟨NT.f_arglist, 6072, [.a ⟨6072, false, [], [.dump, .flag .inKwarg true, .flag .inArgdef true], [.new .Context]⟩, .n NT.f_args, .n NT.term, .a ⟨6079, false, [(.Context, 1), (.NodeList, 2)], [.restore .inKwarg 1, .flag .inArgdef false], [.new .MaybeNode]⟩]⟩,
  ⟨NT.args_tail, 6090, [.n NT.f_kwarg, .t .tCOMMA, .n NT.f_kwrest, .n NT.opt_f_block_arg, .a ⟨6091, false, [(.BoxedNodeList, 1), (.NodeList, 3), (.NodeList, 4)], [], [.new .NodeList]⟩]⟩,
  ⟨NT.args_tail, 6102, [.n NT.f_kwarg, .n NT.opt_f_block_arg, .a ⟨6103, false, [(.BoxedNodeList, 1), (.NodeList, 2)], [], [.new .NodeList]⟩]⟩,
  ⟨NT.args_tail, 6109, [.n NT.f_any_kwrest, .n NT.opt_f_block_arg, .a ⟨6110, false, [(.BoxedNodeList, 1), (.NodeList, 2)], [], [.new .NodeList]⟩]⟩,
  ⟨NT.args_tail, 6116, [.n NT.f_block_arg, .a ⟨6117, false, [(.Node, 1)], [], [.new .NodeList]⟩]⟩,
  ⟨NT.args_tail, 6124, [.n NT.args_forward, .a ⟨6125, false, [(.Token, 1)], [.touch [.env]], [.new .NodeList]⟩]⟩,
  ⟨NT.opt_args_tail, 6136, [.t .tCOMMA, .n NT.args_tail, .a ⟨6137, false, [(.raw, 2)], [], [.copy 2]⟩]⟩,
  ⟨NT.opt_args_tail, 6141, [.a ⟨6141, false, [], [], [.new .NodeList]⟩]⟩,
  ⟨NT.f_args, 6146, [.n NT.f_arg, .t .tCOMMA, .n NT.f_optarg, .t .tCOMMA, .n NT.f_rest_arg, .n NT.opt_args_tail, .a ⟨6147, false, [(.BoxedNodeList, 1), (.NodeList, 3), (.NodeList, 5), (.NodeList, 6)], [], [.new .NodeList]⟩]⟩,
  ⟨NT.f_args, 6160, [.n NT.f_arg, .t .tCOMMA, .n NT.f_optarg, .t .tCOMMA, .n NT.f_rest_arg, .t .tCOMMA, .n NT.f_arg, .n NT.opt_args_tail, .a ⟨6161, false, [(.BoxedNodeList, 1), (.NodeList, 3), (.NodeList, 5), (.NodeList, 7), (.NodeList, 8)], [], [.new .NodeList]⟩]⟩,
  ⟨NT.f_args, 6176, [.n NT.f_arg, .t .tCOMMA, .n NT.f_optarg, .n NT.opt_args_tail, .a ⟨6177, false, [(.BoxedNodeList, 1), (.NodeList, 3), (.NodeList, 4)], [], [.new .NodeList]⟩]⟩,
  ⟨NT.f_args, 6188, [.n NT.f_arg, .t .tCOMMA, .n NT.f_optarg, .t .tCOMMA, .n NT.f_arg, .n NT.opt_args_tail, .a ⟨6189, false, [(.BoxedNodeList, 1), (.NodeList, 3), (.NodeList, 5), (.NodeList, 6)], [], [.new .NodeList]⟩]⟩,
  ⟨NT.f_args, 6202, [.n NT.f_arg, .t .tCOMMA, .n NT.f_rest_arg, .n NT.opt_args_tail, .a ⟨6203, false, [(.BoxedNodeList, 1), (.NodeList, 3), (.NodeList, 4)], [], [.new .NodeList]⟩]⟩,
  ⟨NT.f_args, 6214, [.n NT.f_arg, .t .tCOMMA, .n NT.f_rest_arg, .t .tCOMMA, .n NT.f_arg, .n NT.opt_args_tail, .a ⟨6215, false, [(.BoxedNodeList, 1), (.NodeList, 3), (.NodeList, 5), (.NodeList, 6)], [], [.new .NodeList]⟩]⟩,
  ⟨NT.f_args, 6228, [.n NT.f_arg, .n NT.opt_args_tail, .a ⟨6229, false, [(.BoxedNodeList, 1), (.NodeList, 2)], [], [.new .NodeList]⟩]⟩
]

/-- src/parser/parse.y:6235-6558. -/
def rules16 : List Rule := [
  ⟨NT.f_args, 6235, [.n NT.f_optarg, .t .tCOMMA, .n NT.f_rest_arg, .n NT.opt_args_tail, .a ⟨6236, false, [(.BoxedNodeList, 1), (.NodeList, 3), (.NodeList, 4)], [], [.new .NodeList]⟩]⟩,
  ⟨NT.f_args, 6247, [.n NT.f_optarg, .t .tCOMMA, .n NT.f_rest_arg, .t .tCOMMA, .n NT.f_arg, .n NT.opt_args_tail, .a ⟨6248, false, [(.BoxedNodeList, 1), (.NodeList, 3), (.NodeList, 5), (.NodeList, 6)], [], [.new .NodeList]⟩]⟩,
  ⟨NT.f_args, 6261, [.n NT.f_optarg, .n NT.opt_args_tail, .a ⟨6262, false, [(.BoxedNodeList, 1), (.NodeList, 2)], [], [.new .NodeList]⟩]⟩,
  ⟨NT.f_args, 6268, [.n NT.f_optarg, .t .tCOMMA, .n NT.f_arg, .n NT.opt_args_tail, .a ⟨6269, false, [(.BoxedNodeList, 1), (.NodeList, 3), (.NodeList, 4)], [], [.new .NodeList]⟩]⟩,
  ⟨NT.f_args, 6280, [.n NT.f_rest_arg, .n NT.opt_args_tail, .a ⟨6281, false, [(.BoxedNodeList, 1), (.NodeList, 2)], [], [.new .NodeList]⟩]⟩,
  ⟨NT.f_args, 6287, [.n NT.f_rest_arg, .t .tCOMMA, .n NT.f_arg, .n NT.opt_args_tail, .a ⟨6288, false, [(.BoxedNodeList, 1), (.NodeList, 3), (.NodeList, 4)], [], [.new .NodeList]⟩]⟩,
  ⟨NT.f_args, 6299, [.n NT.args_tail, .a ⟨6300, false, [(.BoxedNodeList, 1)], [], [.new .NodeList]⟩]⟩,
  ⟨NT.f_args, 6304, [.a ⟨6304, false, [], [], [.new .NodeList]⟩]⟩,
  ⟨NT.args_forward, 6309, [.t .tBDOT3, .a ⟨6310, false, [(.raw, 1)], [], [.copy 1]⟩]⟩,
  ⟨NT.f_bad_arg, 6315, [.t .tCONSTANT, .a ⟨6316, true, [], [], []⟩]⟩,
  ⟨NT.f_bad_arg, 6319, [.t .tIVAR, .a ⟨6320, true, [], [], []⟩]⟩,
  ⟨NT.f_bad_arg, 6323, [.t .tGVAR, .a ⟨6324, true, [], [], []⟩]⟩,
  ⟨NT.f_bad_arg, 6327, [.t .tCVAR, .a ⟨6328, true, [], [], []⟩]⟩,
  ⟨NT.f_norm_arg, 6333, [.n NT.f_bad_arg, .a ⟨6334, false, [(.raw, 1)], [], [.copy 1]⟩]⟩,
  ⟨NT.f_norm_arg, 6337, [.t .tIDENTIFIER, .a ⟨6338, false, [(.Token, 1)], [.touch [.env], .touch [.num]], [.new .Token]⟩]⟩,
  ⟨NT.f_arg_asgn, 6347, [.n NT.f_norm_arg, .a ⟨6348, false, [(.Token, 1)], [.touch [.arg]], [.new .Token]⟩]⟩,
  ⟨NT.f_arg_item, 6356, [.n NT.f_arg_asgn, .a ⟨6357, false, [(.Token, 1)], [.touch [.arg]], [.new .Node]⟩]⟩,
  ⟨NT.f_arg_item, 6363, [.t .tLPAREN, .n NT.f_margs, .n NT.rparen, .a ⟨6364, false, [(.Token, 1), (.NodeList, 2), (.Token, 3)], [], [.new .Node]⟩]⟩,
  ⟨NT.f_arg, 6375, [.n NT.f_arg_item, .a ⟨6376, false, [(.Node, 1)], [], [.new .NodeList]⟩]⟩,
  ⟨NT.f_arg, 6379, [.n NT.f_arg, .t .tCOMMA, .n NT.f_arg_item, .a ⟨6380, false, [(.BoxedNodeList, 1), (.Node, 3)], [], [.new .NodeList]⟩]⟩,
  ⟨NT.f_label, 6388, [.t .tLABEL, .a ⟨6389, false, [(.Token, 1)], [.touch [.env], .touch [.num], .touch [.arg], .flag .inArgdef false], [.new .Token]⟩]⟩,
  ⟨NT.f_kw, 6405, [.n NT.f_label, .n NT.arg_value, .a ⟨6406, false, [(.Token, 1), (.BoxedNode, 2)], [.touch [.arg], .flag .inArgdef true], [.new .Node]⟩]⟩,
  ⟨NT.f_kw, 6413, [.n NT.f_label, .a ⟨6414, false, [(.Token, 1)], [.touch [.arg], .flag .inArgdef true], [.new .Node]⟩]⟩,
  ⟨NT.f_block_kw, 6423, [.n NT.f_label, .n NT.primary_value, .a ⟨6424, false, [(.Token, 1), (.BoxedNode, 2)], [.flag .inArgdef true], [.new .Node]⟩]⟩,
  ⟨NT.f_block_kw, 6430, [.n NT.f_label, .a ⟨6431, false, [(.Token, 1)], [.flag .inArgdef true], [.new .Node]⟩]⟩,
  ⟨NT.f_block_kwarg, 6439, [.n NT.f_block_kw, .a ⟨6440, false, [(.Node, 1)], [], [.new .NodeList]⟩]⟩,
  ⟨NT.f_block_kwarg, 6443, [.n NT.f_block_kwarg, .t .tCOMMA, .n NT.f_block_kw, .a ⟨6444, false, [(.BoxedNodeList, 1), (.Node, 3)], [], [.new .NodeList]⟩]⟩,
  ⟨NT.f_kwarg, 6452, [.n NT.f_kw, .a ⟨6453, false, [(.Node, 1)], [], [.new .NodeList]⟩]⟩,
  ⟨NT.f_kwarg, 6456, [.n NT.f_kwarg, .t .tCOMMA, .n NT.f_kw, .a ⟨6457, false, [(.BoxedNodeList, 1), (.Node, 3)], [], [.new .NodeList]⟩]⟩,
  ⟨NT.kwrest_mark, 6464, [.t .tPOW, .a ⟨6465, false, [(.raw, 1)], [], [.copy 1]⟩]⟩,
  ⟨NT.kwrest_mark, 6468, [.t .tDSTAR, .a ⟨6469, false, [(.raw, 1)], [], [.copy 1]⟩]⟩,
  ⟨NT.f_no_kwarg, 6474, [.n NT.p_kwnorest, .a ⟨6475, false, [(.NoKwRest, 1)], [], [.new .NodeList]⟩]⟩,
  ⟨NT.f_kwrest, 6490, [.n NT.kwrest_mark, .t .tIDENTIFIER, .a ⟨6491, false, [(.Token, 2), (.Token, 1)], [.touch [.env]], [.new .NodeList]⟩]⟩,
  ⟨NT.f_kwrest, 6502, [.n NT.kwrest_mark, .a ⟨6503, false, [(.Token, 1)], [], [.new .NodeList]⟩]⟩,
  ⟨NT.f_opt, 6514, [.n NT.f_arg_asgn, .n NT.f_eq, .n NT.arg_value, .a ⟨6515, false, [(.Token, 1), (.Token, 2), (.BoxedNode, 3)], [.touch [.arg], .flag .inArgdef true], [.new .Node]⟩]⟩,
  ⟨NT.f_block_opt, 6528, [.n NT.f_arg_asgn, .n NT.f_eq, .n NT.primary_value, .a ⟨6529, false, [(.Token, 1), (.Token, 2), (.BoxedNode, 3)], [.touch [.arg], .flag .inArgdef true], [.new .Node]⟩]⟩,
  ⟨NT.f_block_optarg, 6542, [.n NT.f_block_opt, .a ⟨6543, false, [(.Node, 1)], [], [.new .NodeList]⟩]⟩,
  ⟨NT.f_block_optarg, 6546, [.n NT.f_block_optarg, .t .tCOMMA, .n NT.f_block_opt, .a ⟨6547, false, [(.BoxedNodeList, 1), (.Node, 3)], [], [.new .NodeList]⟩]⟩,
  ⟨NT.f_optarg, 6554, [.n NT.f_opt, .a ⟨6555, false, [(.Node, 1)], [], [.new .NodeList]⟩]⟩,
  ⟨NT.f_optarg, 6558, [.n NT.f_optarg, .t .tCOMMA, .n NT.f_opt, .a ⟨6559, false, [(.BoxedNodeList, 1), (.Node, 3)], [], [.new .NodeList]⟩]⟩
]

/-- src/parser/parse.y:6566-6836. -/
def rules17 : List Rule := [
  ⟨NT.restarg_mark, 6566, [.t .tSTAR2, .a ⟨6567, false, [(.raw, 1)], [], [.copy 1]⟩]⟩,
  ⟨NT.restarg_mark, 6570, [.t .tSTAR, .a ⟨6571, false, [(.raw, 1)], [], [.copy 1]⟩]⟩,
  ⟨NT.f_rest_arg, 6576, [.n NT.restarg_mark, .t .tIDENTIFIER, .a ⟨6577, false, [(.Token, 2), (.Token, 1)], [.touch [.env]], [.new .NodeList]⟩]⟩,
  ⟨NT.f_rest_arg, 6589, [.n NT.restarg_mark, .a ⟨6590, false, [(.Token, 1)], [], [.new .NodeList]⟩]⟩,
  ⟨NT.blkarg_mark, 6601, [.t .tAMPER2, .a ⟨6602, false, [(.raw, 1)], [], [.copy 1]⟩]⟩,
  ⟨NT.blkarg_mark, 6605, [.t .tAMPER, .a ⟨6606, false, [(.raw, 1)], [], [.copy 1]⟩]⟩,
  ⟨NT.f_block_arg, 6611, [.n NT.blkarg_mark, .t .tIDENTIFIER, .a ⟨6612, false, [(.Token, 2), (.Token, 1)], [.touch [.env]], [.new .Node]⟩]⟩,
  ⟨NT.f_block_arg, 6622, [.n NT.blkarg_mark, .a ⟨6623, false, [(.Token, 1)], [.touch [.env]], [.new .Node]⟩]⟩,
  ⟨NT.opt_f_block_arg, 6634, [.t .tCOMMA, .n NT.f_block_arg, .a ⟨6635, false, [(.Node, 2)], [], [.new .NodeList]⟩]⟩,
  ⟨NT.opt_f_block_arg, 6638, [.n NT.none, .a ⟨6639, false, [], [], [.new .NodeList]⟩]⟩,
  ⟨NT.singleton, 6644, [.n NT.var_ref, .a ⟨6645, false, [(.BoxedNode, 1)], [], [.new .Node]⟩]⟩,
  ⟨NT.singleton, 6650, [.t .tLPAREN2, .a ⟨6650, false, [], [], [.new .None]⟩, .n NT.expr, .n NT.rparen, .a ⟨6651, false, [(.BoxedNode, 3)], [], [.new .Node]⟩]⟩,
  ⟨NT.assoc_list, 6682, [.n NT.none, .a ⟨6683, false, [], [], [.new .NodeList]⟩]⟩,
  ⟨NT.assoc_list, 6686, [.n NT.assocs, .n NT.trailer, .a ⟨6687, false, [(.raw, 1)], [], [.copy 1]⟩]⟩,
  ⟨NT.assocs, 6692, [.n NT.assoc, .a ⟨6693, false, [(.Node, 1)], [], [.new .NodeList]⟩]⟩,
  ⟨NT.assocs, 6696, [.n NT.assocs, .t .tCOMMA, .n NT.assoc, .a ⟨6697, false, [(.BoxedNodeList, 1), (.Node, 3)], [], [.new .NodeList]⟩]⟩,
  ⟨NT.assoc, 6704, [.n NT.arg_value, .t .tASSOC, .n NT.arg_value, .a ⟨6705, false, [(.BoxedNode, 1), (.Token, 2), (.BoxedNode, 3)], [], [.new .Node]⟩]⟩,
  ⟨NT.assoc, 6714, [.t .tLABEL, .n NT.arg_value, .a ⟨6715, false, [(.Token, 1), (.BoxedNode, 2)], [], [.new .Node]⟩]⟩,
  ⟨NT.assoc, 6723, [.t .tLABEL, .a ⟨6724, false, [(.Token, 1)], [.touch [.env, .num]], [.new .Node]⟩]⟩,
  ⟨NT.assoc, 6729, [.t .tSTRING_BEG, .n NT.string_contents, .t .tLABEL_END, .n NT.arg_value, .a ⟨6730, false, [(.Token, 1), (.NodeList, 2), (.Token, 3), (.BoxedNode, 4)], [], [.new .Node]⟩]⟩,
  ⟨NT.assoc, 6740, [.t .tDSTAR, .n NT.arg_value, .a ⟨6741, false, [(.Token, 1), (.BoxedNode, 2)], [], [.new .Node]⟩]⟩,
  ⟨NT.operation, 6748, [.t .tIDENTIFIER, .a ⟨6749, false, [(.raw, 1)], [], [.copy 1]⟩]⟩,
  ⟨NT.operation, 6752, [.t .tCONSTANT, .a ⟨6753, false, [(.raw, 1)], [], [.copy 1]⟩]⟩,
  ⟨NT.operation, 6756, [.t .tFID, .a ⟨6757, false, [(.raw, 1)], [], [.copy 1]⟩]⟩,
  ⟨NT.operation2, 6762, [.n NT.operation, .a ⟨6763, false, [(.raw, 1)], [], [.copy 1]⟩]⟩,
  ⟨NT.operation2, 6766, [.n NT.op, .a ⟨6767, false, [(.raw, 1)], [], [.copy 1]⟩]⟩,
  ⟨NT.operation3, 6772, [.t .tIDENTIFIER, .a ⟨6773, false, [(.raw, 1)], [], [.copy 1]⟩]⟩,
  ⟨NT.operation3, 6776, [.t .tFID, .a ⟨6777, false, [(.raw, 1)], [], [.copy 1]⟩]⟩,
  ⟨NT.operation3, 6780, [.n NT.op, .a ⟨6781, false, [(.raw, 1)], [], [.copy 1]⟩]⟩,
  ⟨NT.dot_or_colon, 6786, [.t .tDOT, .a ⟨6787, false, [(.raw, 1)], [], [.copy 1]⟩]⟩,
  ⟨NT.dot_or_colon, 6790, [.t .tCOLON2, .a ⟨6791, false, [(.raw, 1)], [], [.copy 1]⟩]⟩,
  ⟨NT.call_op, 6796, [.t .tDOT, .a ⟨6797, false, [(.raw, 1)], [], [.copy 1]⟩]⟩,
  ⟨NT.call_op, 6800, [.t .tANDDOT, .a ⟨6801, false, [(.raw, 1)], [], [.copy 1]⟩]⟩,
  ⟨NT.call_op2, 6806, [.n NT.call_op, .a ⟨6807, false, [(.raw, 1)], [], [.copy 1]⟩]⟩,
  ⟨NT.call_op2, 6810, [.t .tCOLON2, .a ⟨6811, false, [(.raw, 1)], [], [.copy 1]⟩]⟩,
  ⟨NT.opt_terms, 6817, [.a ⟨6817, false, [], [], [.new .None]⟩]⟩,
  ⟨NT.opt_terms, 6820, [.n NT.terms, .a ⟨6821, false, [], [], [.new .None]⟩]⟩,
  ⟨NT.opt_nl, 6827, [.a ⟨6827, false, [], [], [.new .None]⟩]⟩,
  ⟨NT.opt_nl, 6830, [.t .tNL, .a ⟨6831, false, [], [], [.new .None]⟩]⟩,
  ⟨NT.rparen, 6836, [.n NT.opt_nl, .t .tRPAREN, .a ⟨6837, false, [(.raw, 2)], [], [.copy 2]⟩]⟩
]

/-- src/parser/parse.y:6842-6889. -/
def rules18 : List Rule := [
  ⟨NT.rbracket, 6842, [.n NT.opt_nl, .t .tRBRACK, .a ⟨6843, false, [(.raw, 2)], [], [.copy 2]⟩]⟩,
  ⟨NT.rbrace, 6848, [.n NT.opt_nl, .t .tRCURLY, .a ⟨6849, false, [(.raw, 2)], [], [.copy 2]⟩]⟩,
  ⟨NT.trailer, 6855, [.a ⟨6855, false, [], [], [.new .None]⟩]⟩,
  ⟨NT.trailer, 6858, [.t .tNL, .a ⟨6859, false, [], [], [.new .None]⟩]⟩,
  ⟨NT.trailer, 6862, [.t .tCOMMA, .a ⟨6863, false, [], [], [.new .None]⟩]⟩,
  ⟨NT.term, 6868, [.t .tSEMI, .a ⟨6869, false, [(.raw, 1)], [], [.copy 1]⟩]⟩,
  ⟨NT.term, 6872, [.t .tNL, .a ⟨6873, false, [(.raw, 1)], [], [.copy 1]⟩]⟩,
  ⟨NT.terms, 6878, [.n NT.term, .a ⟨6879, false, [], [], [.new .None]⟩]⟩,
  ⟨NT.terms, 6882, [.n NT.terms, .t .tSEMI, .a ⟨6883, false, [], [], [.new .None]⟩]⟩,
  ⟨NT.none, 6889, [.a ⟨6889, false, [], [], [.new .None]⟩]⟩
]

/-- All productions. -/
def rules : List Rule :=
  rules0 ++ rules1 ++ rules2 ++ rules3 ++ rules4 ++ rules5 ++ rules6 ++ rules7 ++ rules8 ++ rules9 ++ rules10 ++ rules11 ++ rules12 ++ rules13 ++ rules14 ++ rules15 ++ rules16 ++ rules17 ++ rules18

end Verif.Grammar
