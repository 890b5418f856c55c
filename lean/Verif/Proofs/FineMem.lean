import Verif.Props.Sound
/-
Every production of the refined grammar, by number. (Generated from Model/Fine.lean.)
-/
namespace Verif.Grammar.Fm
open Verif Verif.Lexer Verif.Grammar

theorem file_1 : ((.file : FNT), (1 : Nat), ([.n .anyStmts, .t K.eof] : List FSym)) ∈ fine := List.mem_of_getElem? (i := 0) rfl
theorem suitefalse_2 : ((.suite false : FNT), (2 : Nat), ([.t K.newline, .n .comments, .t K.indent, .n .anyStmts, .t K.unindent] : List FSym)) ∈ fine := List.mem_of_getElem? (i := 1) rfl
theorem suitetrue_3 : ((.suite true : FNT), (3 : Nat), ([.n .simpleStmt, .n .linebreaksOpt] : List FSym)) ∈ fine := List.mem_of_getElem? (i := 2) rfl
theorem linebreaksOpt_4 : ((.linebreaksOpt : FNT), (4 : Nat), ([] : List FSym)) ∈ fine := List.mem_of_getElem? (i := 3) rfl
theorem linebreaksOpt_5 : ((.linebreaksOpt : FNT), (5 : Nat), ([.n .linebreaksOpt, .t K.newline] : List FSym)) ∈ fine := List.mem_of_getElem? (i := 4) rfl
theorem comments_6 : ((.comments : FNT), (6 : Nat), ([] : List FSym)) ∈ fine := List.mem_of_getElem? (i := 5) rfl
theorem comments_7 : ((.comments : FNT), (7 : Nat), ([.n .comments, .t K.comment, .t K.newline] : List FSym)) ∈ fine := List.mem_of_getElem? (i := 6) rfl
theorem comments_8 : ((.comments : FNT), (8 : Nat), ([.n .comments, .t K.newline] : List FSym)) ∈ fine := List.mem_of_getElem? (i := 7) rfl
theorem stmtsfalse_9 : ((.stmts false : FNT), (9 : Nat), ([] : List FSym)) ∈ fine := List.mem_of_getElem? (i := 8) rfl
theorem stmtsfalse_10 : ((.stmts false : FNT), (10 : Nat), ([.n .anyStmts, .n (.stmt false)] : List FSym)) ∈ fine := List.mem_of_getElem? (i := 9) rfl
theorem stmtstrue_10 : ((.stmts true : FNT), (10 : Nat), ([.n .anyStmts, .n (.stmt true)] : List FSym)) ∈ fine := List.mem_of_getElem? (i := 10) rfl
theorem stmtsfalse_11 : ((.stmts false : FNT), (11 : Nat), ([.n (.stmts false), .t K.newline] : List FSym)) ∈ fine := List.mem_of_getElem? (i := 11) rfl
theorem stmtsfalse_12 : ((.stmts false : FNT), (12 : Nat), ([.n .anyStmts, .t K.comment, .t K.newline] : List FSym)) ∈ fine := List.mem_of_getElem? (i := 12) rfl
theorem stmtfalse_13 : ((.stmt false : FNT), (13 : Nat), ([.n .simpleStmt] : List FSym)) ∈ fine := List.mem_of_getElem? (i := 13) rfl
theorem stmtfalse_14 : ((.stmt false : FNT), (14 : Nat), ([.n (.blockStmt false)] : List FSym)) ∈ fine := List.mem_of_getElem? (i := 14) rfl
theorem stmttrue_14 : ((.stmt true : FNT), (14 : Nat), ([.n (.blockStmt true)] : List FSym)) ∈ fine := List.mem_of_getElem? (i := 15) rfl
theorem defHeader_15 : ((.defHeader : FNT), (15 : Nat), ([.t K.def_, .t K.ident, .t (ch '('), .n .parametersTypeOpt, .t (ch ')')] : List FSym)) ∈ fine := List.mem_of_getElem? (i := 16) rfl
theorem defHeaderTypeOpt_16 : ((.defHeaderTypeOpt : FNT), (16 : Nat), ([.n .defHeader] : List FSym)) ∈ fine := List.mem_of_getElem? (i := 17) rfl
theorem defHeaderTypeOpt_17 : ((.defHeaderTypeOpt : FNT), (17 : Nat), ([.n .defHeader, .t K.arrow, .n (.any 2)] : List FSym)) ∈ fine := List.mem_of_getElem? (i := 18) rfl
theorem blockStmtfalse_18 : ((.blockStmt false : FNT), (18 : Nat), ([.n .defHeaderTypeOpt, .t (ch ':'), .n (.suite false)] : List FSym)) ∈ fine := List.mem_of_getElem? (i := 19) rfl
theorem blockStmttrue_18 : ((.blockStmt true : FNT), (18 : Nat), ([.n .defHeaderTypeOpt, .t (ch ':'), .n (.suite true)] : List FSym)) ∈ fine := List.mem_of_getElem? (i := 20) rfl
theorem blockStmtfalse_19 : ((.blockStmt false : FNT), (19 : Nat), ([.t K.for_, .n .loopVars, .t K.in_, .n .expr, .t (ch ':'), .n (.suite false)] : List FSym)) ∈ fine := List.mem_of_getElem? (i := 21) rfl
theorem blockStmttrue_19 : ((.blockStmt true : FNT), (19 : Nat), ([.t K.for_, .n .loopVars, .t K.in_, .n .expr, .t (ch ':'), .n (.suite true)] : List FSym)) ∈ fine := List.mem_of_getElem? (i := 22) rfl
theorem blockStmtfalse_20 : ((.blockStmt false : FNT), (20 : Nat), ([.n (.ifElseBlock false)] : List FSym)) ∈ fine := List.mem_of_getElem? (i := 23) rfl
theorem blockStmttrue_20 : ((.blockStmt true : FNT), (20 : Nat), ([.n (.ifElseBlock true)] : List FSym)) ∈ fine := List.mem_of_getElem? (i := 24) rfl
theorem ifChainfalse_21 : ((.ifChain false : FNT), (21 : Nat), ([.t K.if_, .n .expr, .t (ch ':'), .n (.suite false)] : List FSym)) ∈ fine := List.mem_of_getElem? (i := 25) rfl
theorem ifChaintrue_21 : ((.ifChain true : FNT), (21 : Nat), ([.t K.if_, .n .expr, .t (ch ':'), .n (.suite true)] : List FSym)) ∈ fine := List.mem_of_getElem? (i := 26) rfl
theorem ifChainfalse_22 : ((.ifChain false : FNT), (22 : Nat), ([.n .anyIfChain, .n .elif_, .n .expr, .t (ch ':'), .n (.suite false)] : List FSym)) ∈ fine := List.mem_of_getElem? (i := 27) rfl
theorem ifChaintrue_22 : ((.ifChain true : FNT), (22 : Nat), ([.n .anyIfChain, .n .elif_, .n .expr, .t (ch ':'), .n (.suite true)] : List FSym)) ∈ fine := List.mem_of_getElem? (i := 28) rfl
theorem ifElseBlockfalse_23 : ((.ifElseBlock false : FNT), (23 : Nat), ([.n (.ifChain false)] : List FSym)) ∈ fine := List.mem_of_getElem? (i := 29) rfl
theorem ifElseBlocktrue_23 : ((.ifElseBlock true : FNT), (23 : Nat), ([.n (.ifChain true)] : List FSym)) ∈ fine := List.mem_of_getElem? (i := 30) rfl
theorem ifElseBlockfalse_24 : ((.ifElseBlock false : FNT), (24 : Nat), ([.n .anyIfChain, .t K.else_, .t (ch ':'), .n (.suite false)] : List FSym)) ∈ fine := List.mem_of_getElem? (i := 31) rfl
theorem ifElseBlocktrue_24 : ((.ifElseBlock true : FNT), (24 : Nat), ([.n .anyIfChain, .t K.else_, .t (ch ':'), .n (.suite true)] : List FSym)) ∈ fine := List.mem_of_getElem? (i := 32) rfl
theorem elif_25 : ((.elif_ : FNT), (25 : Nat), ([.t K.else_, .t K.if_] : List FSym)) ∈ fine := List.mem_of_getElem? (i := 33) rfl
theorem elif_26 : ((.elif_ : FNT), (26 : Nat), ([.t K.elif] : List FSym)) ∈ fine := List.mem_of_getElem? (i := 34) rfl
theorem simpleStmt_27 : ((.simpleStmt : FNT), (27 : Nat), ([.n .smallStmt, .n .smallStmtsContinuation, .n .semiOpt, .t K.newline] : List FSym)) ∈ fine := List.mem_of_getElem? (i := 35) rfl
theorem smallStmtsContinuation_28 : ((.smallStmtsContinuation : FNT), (28 : Nat), ([] : List FSym)) ∈ fine := List.mem_of_getElem? (i := 36) rfl
theorem smallStmtsContinuation_29 : ((.smallStmtsContinuation : FNT), (29 : Nat), ([.n .smallStmtsContinuation, .t (ch ';'), .n .smallStmt] : List FSym)) ∈ fine := List.mem_of_getElem? (i := 37) rfl
theorem smallStmt_30 : ((.smallStmt : FNT), (30 : Nat), ([.n .expr] : List FSym)) ∈ fine := List.mem_of_getElem? (i := 38) rfl
theorem smallStmt_31 : ((.smallStmt : FNT), (31 : Nat), ([.t K.return_, .n .expr] : List FSym)) ∈ fine := List.mem_of_getElem? (i := 39) rfl
theorem smallStmt_32 : ((.smallStmt : FNT), (32 : Nat), ([.t K.return_] : List FSym)) ∈ fine := List.mem_of_getElem? (i := 40) rfl
theorem smallStmt_33 : ((.smallStmt : FNT), (33 : Nat), ([.n .expr, .t (ch '='), .n .expr] : List FSym)) ∈ fine := List.mem_of_getElem? (i := 41) rfl
theorem smallStmt_34 : ((.smallStmt : FNT), (34 : Nat), ([.n .expr, .t K.augm, .n .expr] : List FSym)) ∈ fine := List.mem_of_getElem? (i := 42) rfl
theorem smallStmt_35 : ((.smallStmt : FNT), (35 : Nat), ([.t K.pass] : List FSym)) ∈ fine := List.mem_of_getElem? (i := 43) rfl
theorem smallStmt_36 : ((.smallStmt : FNT), (36 : Nat), ([.t K.break_] : List FSym)) ∈ fine := List.mem_of_getElem? (i := 44) rfl
theorem smallStmt_37 : ((.smallStmt : FNT), (37 : Nat), ([.t K.continue_] : List FSym)) ∈ fine := List.mem_of_getElem? (i := 45) rfl
theorem semiOpt_38 : ((.semiOpt : FNT), (38 : Nat), ([] : List FSym)) ∈ fine := List.mem_of_getElem? (i := 46) rfl
theorem semiOpt_39 : ((.semiOpt : FNT), (39 : Nat), ([.t (ch ';')] : List FSym)) ∈ fine := List.mem_of_getElem? (i := 47) rfl
theorem primary_40 : ((.primary : FNT), (40 : Nat), ([.n .ident] : List FSym)) ∈ fine := List.mem_of_getElem? (i := 48) rfl
theorem primary_41 : ((.primary : FNT), (41 : Nat), ([.n .number] : List FSym)) ∈ fine := List.mem_of_getElem? (i := 49) rfl
theorem primaryInt_41 : ((.primaryInt : FNT), (41 : Nat), ([.n .numberInt] : List FSym)) ∈ fine := List.mem_of_getElem? (i := 50) rfl
theorem primary_42 : ((.primary : FNT), (42 : Nat), ([.n .string] : List FSym)) ∈ fine := List.mem_of_getElem? (i := 51) rfl
theorem primary_43 : ((.primary : FNT), (43 : Nat), ([.n .primary, .t (ch '.'), .t K.ident] : List FSym)) ∈ fine := List.mem_of_getElem? (i := 52) rfl
theorem primary_44 : ((.primary : FNT), (44 : Nat), ([.t K.load, .t (ch '('), .n .commasOpt, .n .string, .n .commas, .n .loadArguments, .n .commasOpt, .t (ch ')')] : List FSym)) ∈ fine := List.mem_of_getElem? (i := 53) rfl
theorem primary_45 : ((.primary : FNT), (45 : Nat), ([.n .primaryExpr, .t (ch '('), .n .argumentsOpt, .t (ch ')')] : List FSym)) ∈ fine := List.mem_of_getElem? (i := 54) rfl
theorem primary_46 : ((.primary : FNT), (46 : Nat), ([.n .primaryExpr, .t (ch '['), .n .expr, .t (ch ']')] : List FSym)) ∈ fine := List.mem_of_getElem? (i := 55) rfl
theorem primary_47 : ((.primary : FNT), (47 : Nat), ([.n .primaryExpr, .t (ch '['), .n .exprOpt, .t (ch ':'), .n .testOpt, .t (ch ']')] : List FSym)) ∈ fine := List.mem_of_getElem? (i := 56) rfl
theorem primary_48 : ((.primary : FNT), (48 : Nat), ([.n .primaryExpr, .t (ch '['), .n .exprOpt, .t (ch ':'), .n .testOpt, .t (ch ':'), .n .testOpt, .t (ch ']')] : List FSym)) ∈ fine := List.mem_of_getElem? (i := 57) rfl
theorem primary_49 : ((.primary : FNT), (49 : Nat), ([.t (ch '['), .n .testsOpt, .t (ch ']')] : List FSym)) ∈ fine := List.mem_of_getElem? (i := 58) rfl
theorem primary_50 : ((.primary : FNT), (50 : Nat), ([.t (ch '['), .n (.any 2), .n .forClausesWithIfClausesOpt, .t (ch ']')] : List FSym)) ∈ fine := List.mem_of_getElem? (i := 59) rfl
theorem primary_51 : ((.primary : FNT), (51 : Nat), ([.t (ch '{'), .n .keyvalue, .n .forClausesWithIfClausesOpt, .t (ch '}')] : List FSym)) ∈ fine := List.mem_of_getElem? (i := 60) rfl
theorem primary_52 : ((.primary : FNT), (52 : Nat), ([.t (ch '{'), .n .keyvalues, .t (ch '}')] : List FSym)) ∈ fine := List.mem_of_getElem? (i := 61) rfl
theorem primary_53 : ((.primary : FNT), (53 : Nat), ([.t (ch '{'), .n .tests, .n .commaOpt, .t (ch '}')] : List FSym)) ∈ fine := List.mem_of_getElem? (i := 62) rfl
theorem primary_54 : ((.primary : FNT), (54 : Nat), ([.t (ch '('), .n .testsOpt, .t (ch ')')] : List FSym)) ∈ fine := List.mem_of_getElem? (i := 63) rfl
theorem argumentsOpt_55 : ((.argumentsOpt : FNT), (55 : Nat), ([] : List FSym)) ∈ fine := List.mem_of_getElem? (i := 64) rfl
theorem argumentsOpt_56 : ((.argumentsOpt : FNT), (56 : Nat), ([.n .arguments, .n .commasOpt] : List FSym)) ∈ fine := List.mem_of_getElem? (i := 65) rfl
theorem arguments_57 : ((.arguments : FNT), (57 : Nat), ([.n .commasOpt, .n .argument] : List FSym)) ∈ fine := List.mem_of_getElem? (i := 66) rfl
theorem arguments_58 : ((.arguments : FNT), (58 : Nat), ([.n .arguments, .n .commas, .n .argument] : List FSym)) ∈ fine := List.mem_of_getElem? (i := 67) rfl
theorem argument_59 : ((.argument : FNT), (59 : Nat), ([.n (.any 2)] : List FSym)) ∈ fine := List.mem_of_getElem? (i := 68) rfl
theorem argument_60 : ((.argument : FNT), (60 : Nat), ([.n .ident, .t (ch '='), .n (.any 2)] : List FSym)) ∈ fine := List.mem_of_getElem? (i := 69) rfl
theorem argument_61 : ((.argument : FNT), (61 : Nat), ([.t (ch '*'), .n (.any 2)] : List FSym)) ∈ fine := List.mem_of_getElem? (i := 70) rfl
theorem argument_62 : ((.argument : FNT), (62 : Nat), ([.t K.starStar, .n (.any 2)] : List FSym)) ∈ fine := List.mem_of_getElem? (i := 71) rfl
theorem loadArguments_63 : ((.loadArguments : FNT), (63 : Nat), ([.n .loadArgument] : List FSym)) ∈ fine := List.mem_of_getElem? (i := 72) rfl
theorem loadArguments_64 : ((.loadArguments : FNT), (64 : Nat), ([.n .loadArguments, .t (ch ','), .n .loadArgument] : List FSym)) ∈ fine := List.mem_of_getElem? (i := 73) rfl
theorem loadArgument_65 : ((.loadArgument : FNT), (65 : Nat), ([.n .string] : List FSym)) ∈ fine := List.mem_of_getElem? (i := 74) rfl
theorem loadArgument_66 : ((.loadArgument : FNT), (66 : Nat), ([.n .ident, .t (ch '='), .n .string] : List FSym)) ∈ fine := List.mem_of_getElem? (i := 75) rfl
theorem parametersOpt_67 : ((.parametersOpt : FNT), (67 : Nat), ([] : List FSym)) ∈ fine := List.mem_of_getElem? (i := 76) rfl
theorem parametersOpt_68 : ((.parametersOpt : FNT), (68 : Nat), ([.n .parameters, .n .commaOpt] : List FSym)) ∈ fine := List.mem_of_getElem? (i := 77) rfl
theorem parametersTypeOpt_69 : ((.parametersTypeOpt : FNT), (69 : Nat), ([] : List FSym)) ∈ fine := List.mem_of_getElem? (i := 78) rfl
theorem parametersTypeOpt_70 : ((.parametersTypeOpt : FNT), (70 : Nat), ([.n .parametersType, .n .commaOpt] : List FSym)) ∈ fine := List.mem_of_getElem? (i := 79) rfl
theorem parameters_71 : ((.parameters : FNT), (71 : Nat), ([.n .parameter] : List FSym)) ∈ fine := List.mem_of_getElem? (i := 80) rfl
theorem parameters_72 : ((.parameters : FNT), (72 : Nat), ([.n .parameters, .t (ch ','), .n .parameter] : List FSym)) ∈ fine := List.mem_of_getElem? (i := 81) rfl
theorem parametersType_73 : ((.parametersType : FNT), (73 : Nat), ([.n .parameterType] : List FSym)) ∈ fine := List.mem_of_getElem? (i := 82) rfl
theorem parametersType_74 : ((.parametersType : FNT), (74 : Nat), ([.n .parametersType, .t (ch ','), .n .parameterType] : List FSym)) ∈ fine := List.mem_of_getElem? (i := 83) rfl
theorem parameter_75 : ((.parameter : FNT), (75 : Nat), ([.n .ident] : List FSym)) ∈ fine := List.mem_of_getElem? (i := 84) rfl
theorem parameter_76 : ((.parameter : FNT), (76 : Nat), ([.n .ident, .t (ch '='), .n (.any 2)] : List FSym)) ∈ fine := List.mem_of_getElem? (i := 85) rfl
theorem parameter_77 : ((.parameter : FNT), (77 : Nat), ([.t (ch '*'), .n .ident] : List FSym)) ∈ fine := List.mem_of_getElem? (i := 86) rfl
theorem parameter_78 : ((.parameter : FNT), (78 : Nat), ([.t (ch '*')] : List FSym)) ∈ fine := List.mem_of_getElem? (i := 87) rfl
theorem parameter_79 : ((.parameter : FNT), (79 : Nat), ([.t K.starStar, .n .ident] : List FSym)) ∈ fine := List.mem_of_getElem? (i := 88) rfl
theorem parameterType_80 : ((.parameterType : FNT), (80 : Nat), ([.n .parameter] : List FSym)) ∈ fine := List.mem_of_getElem? (i := 89) rfl
theorem parameterType_81 : ((.parameterType : FNT), (81 : Nat), ([.n .ident, .t (ch ':'), .n (.any 2)] : List FSym)) ∈ fine := List.mem_of_getElem? (i := 90) rfl
theorem parameterType_82 : ((.parameterType : FNT), (82 : Nat), ([.n .ident, .t (ch ':'), .n (.any 2), .t (ch '='), .n (.any 2)] : List FSym)) ∈ fine := List.mem_of_getElem? (i := 91) rfl
theorem parameterType_83 : ((.parameterType : FNT), (83 : Nat), ([.t (ch '*'), .n .ident, .t (ch ':'), .n (.any 2)] : List FSym)) ∈ fine := List.mem_of_getElem? (i := 92) rfl
theorem parameterType_84 : ((.parameterType : FNT), (84 : Nat), ([.t K.starStar, .n .ident, .t (ch ':'), .n (.any 2)] : List FSym)) ∈ fine := List.mem_of_getElem? (i := 93) rfl
theorem expr_85 : ((.expr : FNT), (85 : Nat), ([.n (.any 2)] : List FSym)) ∈ fine := List.mem_of_getElem? (i := 94) rfl
theorem expr_86 : ((.expr : FNT), (86 : Nat), ([.n .expr, .t (ch ','), .n (.any 3)] : List FSym)) ∈ fine := List.mem_of_getElem? (i := 95) rfl
theorem exprOpt_87 : ((.exprOpt : FNT), (87 : Nat), ([] : List FSym)) ∈ fine := List.mem_of_getElem? (i := 96) rfl
theorem exprOpt_88 : ((.exprOpt : FNT), (88 : Nat), ([.n .expr] : List FSym)) ∈ fine := List.mem_of_getElem? (i := 97) rfl
theorem tests_118 : ((.tests : FNT), (118 : Nat), ([.n (.any 2)] : List FSym)) ∈ fine := List.mem_of_getElem? (i := 98) rfl
theorem tests_119 : ((.tests : FNT), (119 : Nat), ([.n .tests, .n .commas, .n (.any 2)] : List FSym)) ∈ fine := List.mem_of_getElem? (i := 99) rfl
theorem testOpt_120 : ((.testOpt : FNT), (120 : Nat), ([] : List FSym)) ∈ fine := List.mem_of_getElem? (i := 100) rfl
theorem testOpt_121 : ((.testOpt : FNT), (121 : Nat), ([.n (.any 2)] : List FSym)) ∈ fine := List.mem_of_getElem? (i := 101) rfl
theorem testsOpt_122 : ((.testsOpt : FNT), (122 : Nat), ([] : List FSym)) ∈ fine := List.mem_of_getElem? (i := 102) rfl
theorem testsOpt_123 : ((.testsOpt : FNT), (123 : Nat), ([.n .tests, .n .commasOpt] : List FSym)) ∈ fine := List.mem_of_getElem? (i := 103) rfl
theorem commaOpt_124 : ((.commaOpt : FNT), (124 : Nat), ([] : List FSym)) ∈ fine := List.mem_of_getElem? (i := 104) rfl
theorem commaOpt_125 : ((.commaOpt : FNT), (125 : Nat), ([.t (ch ',')] : List FSym)) ∈ fine := List.mem_of_getElem? (i := 105) rfl
theorem commas_126 : ((.commas : FNT), (126 : Nat), ([.t (ch ',')] : List FSym)) ∈ fine := List.mem_of_getElem? (i := 106) rfl
theorem commas_127 : ((.commas : FNT), (127 : Nat), ([.n .commas, .t (ch ',')] : List FSym)) ∈ fine := List.mem_of_getElem? (i := 107) rfl
theorem commasOpt_128 : ((.commasOpt : FNT), (128 : Nat), ([] : List FSym)) ∈ fine := List.mem_of_getElem? (i := 108) rfl
theorem commasOpt_129 : ((.commasOpt : FNT), (129 : Nat), ([.n .commas] : List FSym)) ∈ fine := List.mem_of_getElem? (i := 109) rfl
theorem keyvalue_130 : ((.keyvalue : FNT), (130 : Nat), ([.n (.any 2), .t (ch ':'), .n (.any 2)] : List FSym)) ∈ fine := List.mem_of_getElem? (i := 110) rfl
theorem keyvaluesNoComma_131 : ((.keyvaluesNoComma : FNT), (131 : Nat), ([.n .keyvalue] : List FSym)) ∈ fine := List.mem_of_getElem? (i := 111) rfl
theorem keyvaluesNoComma_132 : ((.keyvaluesNoComma : FNT), (132 : Nat), ([.n .keyvaluesNoComma, .n .commas, .n .keyvalue] : List FSym)) ∈ fine := List.mem_of_getElem? (i := 112) rfl
theorem keyvalues_133 : ((.keyvalues : FNT), (133 : Nat), ([] : List FSym)) ∈ fine := List.mem_of_getElem? (i := 113) rfl
theorem keyvalues_134 : ((.keyvalues : FNT), (134 : Nat), ([.n .keyvaluesNoComma] : List FSym)) ∈ fine := List.mem_of_getElem? (i := 114) rfl
theorem keyvalues_135 : ((.keyvalues : FNT), (135 : Nat), ([.n .keyvaluesNoComma, .n .commas] : List FSym)) ∈ fine := List.mem_of_getElem? (i := 115) rfl
theorem loopVars_136 : ((.loopVars : FNT), (136 : Nat), ([.n .primaryExpr] : List FSym)) ∈ fine := List.mem_of_getElem? (i := 116) rfl
theorem loopVars_137 : ((.loopVars : FNT), (137 : Nat), ([.n .loopVars, .t (ch ','), .n .primaryExpr] : List FSym)) ∈ fine := List.mem_of_getElem? (i := 117) rfl
theorem string_138 : ((.string : FNT), (138 : Nat), ([.t K.string] : List FSym)) ∈ fine := List.mem_of_getElem? (i := 118) rfl
theorem ident_139 : ((.ident : FNT), (139 : Nat), ([.t K.ident] : List FSym)) ∈ fine := List.mem_of_getElem? (i := 119) rfl
theorem number_140 : ((.number : FNT), (140 : Nat), ([.t K.int, .t (ch '.'), .t K.int] : List FSym)) ∈ fine := List.mem_of_getElem? (i := 120) rfl
theorem number_141 : ((.number : FNT), (141 : Nat), ([.t K.int, .t (ch '.')] : List FSym)) ∈ fine := List.mem_of_getElem? (i := 121) rfl
theorem number_142 : ((.number : FNT), (142 : Nat), ([.t (ch '.'), .t K.int] : List FSym)) ∈ fine := List.mem_of_getElem? (i := 122) rfl
theorem numberInt_143 : ((.numberInt : FNT), (143 : Nat), ([.t K.int] : List FSym)) ∈ fine := List.mem_of_getElem? (i := 123) rfl
theorem forClausefalse_144 : ((.forClause false : FNT), (144 : Nat), ([.t K.for_, .n .loopVars, .t K.in_, .n (.test 3 false)] : List FSym)) ∈ fine := List.mem_of_getElem? (i := 124) rfl
theorem forClausetrue_144 : ((.forClause true : FNT), (144 : Nat), ([.t K.for_, .n .loopVars, .t K.in_, .n (.test 3 true)] : List FSym)) ∈ fine := List.mem_of_getElem? (i := 125) rfl
theorem clausesfalse_145 : ((.clauses false : FNT), (145 : Nat), ([.n (.forClause false)] : List FSym)) ∈ fine := List.mem_of_getElem? (i := 126) rfl
theorem clausestrue_145 : ((.clauses true : FNT), (145 : Nat), ([.n (.forClause true)] : List FSym)) ∈ fine := List.mem_of_getElem? (i := 127) rfl
theorem clausesfalse_146 : ((.clauses false : FNT), (146 : Nat), ([.n (.clauses false), .t K.if_, .n (.test 3 false)] : List FSym)) ∈ fine := List.mem_of_getElem? (i := 128) rfl
theorem clausestrue_146 : ((.clauses true : FNT), (146 : Nat), ([.n (.clauses false), .t K.if_, .n (.test 3 true)] : List FSym)) ∈ fine := List.mem_of_getElem? (i := 129) rfl
theorem forClausesWithIfClausesOpt_147 : ((.forClausesWithIfClausesOpt : FNT), (147 : Nat), ([.n (.clauses false)] : List FSym)) ∈ fine := List.mem_of_getElem? (i := 130) rfl
theorem forClausesWithIfClausesOpt_147_1 : ((.forClausesWithIfClausesOpt : FNT), (147 : Nat), ([.n (.clauses true)] : List FSym)) ∈ fine := List.mem_of_getElem? (i := 131) rfl
theorem forClausesWithIfClausesOpt_148 : ((.forClausesWithIfClausesOpt : FNT), (148 : Nat), ([.n .forClausesWithIfClausesOpt, .n (.clauses false)] : List FSym)) ∈ fine := List.mem_of_getElem? (i := 132) rfl
theorem forClausesWithIfClausesOpt_148_1 : ((.forClausesWithIfClausesOpt : FNT), (148 : Nat), ([.n .forClausesWithIfClausesOpt, .n (.clauses true)] : List FSym)) ∈ fine := List.mem_of_getElem? (i := 133) rfl
theorem any2_0 : ((.any 2 : FNT), (0 : Nat), ([.n (.test 2 false)] : List FSym)) ∈ fine := List.mem_of_getElem? (i := 134) rfl
theorem any2_0_1 : ((.any 2 : FNT), (0 : Nat), ([.n (.test 2 true)] : List FSym)) ∈ fine := List.mem_of_getElem? (i := 135) rfl
theorem test2false_117 : ((.test 2 false : FNT), (117 : Nat), ([.n (.test 2 false), .t K.if_, .n (.any 2), .t K.else_, .n (.test 3 false)] : List FSym)) ∈ fine := List.mem_of_getElem? (i := 136) rfl
theorem test2false_0 : ((.test 2 false : FNT), (0 : Nat), ([.n (.test 3 false)] : List FSym)) ∈ fine := List.mem_of_getElem? (i := 137) rfl
theorem test3false_116 : ((.test 3 false : FNT), (116 : Nat), ([.n (.test 3 false), .t K.is, .n (.test 4 false)] : List FSym)) ∈ fine := List.mem_of_getElem? (i := 138) rfl
theorem test3false_0 : ((.test 3 false : FNT), (0 : Nat), ([.n (.test 4 false)] : List FSym)) ∈ fine := List.mem_of_getElem? (i := 139) rfl
theorem test4false_109 : ((.test 4 false : FNT), (109 : Nat), ([.n (.test 4 false), .t K.or, .n (.test 5 false)] : List FSym)) ∈ fine := List.mem_of_getElem? (i := 140) rfl
theorem test4false_0 : ((.test 4 false : FNT), (0 : Nat), ([.n (.test 5 false)] : List FSym)) ∈ fine := List.mem_of_getElem? (i := 141) rfl
theorem test5false_110 : ((.test 5 false : FNT), (110 : Nat), ([.n (.test 5 false), .t K.and, .n (.test 6 false)] : List FSym)) ∈ fine := List.mem_of_getElem? (i := 142) rfl
theorem test5false_0 : ((.test 5 false : FNT), (0 : Nat), ([.n (.test 6 false)] : List FSym)) ∈ fine := List.mem_of_getElem? (i := 143) rfl
theorem test6false_101 : ((.test 6 false : FNT), (101 : Nat), ([.n (.test 6 false), .t (ch '<'), .n (.test 7 false)] : List FSym)) ∈ fine := List.mem_of_getElem? (i := 144) rfl
theorem test6false_102 : ((.test 6 false : FNT), (102 : Nat), ([.n (.test 6 false), .t (ch '>'), .n (.test 7 false)] : List FSym)) ∈ fine := List.mem_of_getElem? (i := 145) rfl
theorem test6false_103 : ((.test 6 false : FNT), (103 : Nat), ([.n (.test 6 false), .t K.eq, .n (.test 7 false)] : List FSym)) ∈ fine := List.mem_of_getElem? (i := 146) rfl
theorem test6false_104 : ((.test 6 false : FNT), (104 : Nat), ([.n (.test 6 false), .t K.le, .n (.test 7 false)] : List FSym)) ∈ fine := List.mem_of_getElem? (i := 147) rfl
theorem test6false_105 : ((.test 6 false : FNT), (105 : Nat), ([.n (.test 6 false), .t K.ne, .n (.test 7 false)] : List FSym)) ∈ fine := List.mem_of_getElem? (i := 148) rfl
theorem test6false_106 : ((.test 6 false : FNT), (106 : Nat), ([.n (.test 6 false), .t K.ge, .n (.test 7 false)] : List FSym)) ∈ fine := List.mem_of_getElem? (i := 149) rfl
theorem test6false_107 : ((.test 6 false : FNT), (107 : Nat), ([.n (.test 6 false), .t K.in_, .n (.test 7 false)] : List FSym)) ∈ fine := List.mem_of_getElem? (i := 150) rfl
theorem test6false_108 : ((.test 6 false : FNT), (108 : Nat), ([.n (.test 6 false), .t K.not, .t K.in_, .n (.test 7 false)] : List FSym)) ∈ fine := List.mem_of_getElem? (i := 151) rfl
theorem test6false_0 : ((.test 6 false : FNT), (0 : Nat), ([.n (.test 7 false)] : List FSym)) ∈ fine := List.mem_of_getElem? (i := 152) rfl
theorem test7false_111 : ((.test 7 false : FNT), (111 : Nat), ([.n (.test 7 false), .t (ch '|'), .n (.test 8 false)] : List FSym)) ∈ fine := List.mem_of_getElem? (i := 153) rfl
theorem test7false_0 : ((.test 7 false : FNT), (0 : Nat), ([.n (.test 8 false)] : List FSym)) ∈ fine := List.mem_of_getElem? (i := 154) rfl
theorem test8false_113 : ((.test 8 false : FNT), (113 : Nat), ([.n (.test 8 false), .t (ch '^'), .n (.test 9 false)] : List FSym)) ∈ fine := List.mem_of_getElem? (i := 155) rfl
theorem test8false_0 : ((.test 8 false : FNT), (0 : Nat), ([.n (.test 9 false)] : List FSym)) ∈ fine := List.mem_of_getElem? (i := 156) rfl
theorem test9false_112 : ((.test 9 false : FNT), (112 : Nat), ([.n (.test 9 false), .t (ch '&'), .n (.test 10 false)] : List FSym)) ∈ fine := List.mem_of_getElem? (i := 157) rfl
theorem test9false_0 : ((.test 9 false : FNT), (0 : Nat), ([.n (.test 10 false)] : List FSym)) ∈ fine := List.mem_of_getElem? (i := 158) rfl
theorem test10false_114 : ((.test 10 false : FNT), (114 : Nat), ([.n (.test 10 false), .t K.lsh, .n (.test 11 false)] : List FSym)) ∈ fine := List.mem_of_getElem? (i := 159) rfl
theorem test10false_115 : ((.test 10 false : FNT), (115 : Nat), ([.n (.test 10 false), .t K.rsh, .n (.test 11 false)] : List FSym)) ∈ fine := List.mem_of_getElem? (i := 160) rfl
theorem test10false_0 : ((.test 10 false : FNT), (0 : Nat), ([.n (.test 11 false)] : List FSym)) ∈ fine := List.mem_of_getElem? (i := 161) rfl
theorem test11false_99 : ((.test 11 false : FNT), (99 : Nat), ([.n (.test 11 false), .t (ch '+'), .n (.test 12 false)] : List FSym)) ∈ fine := List.mem_of_getElem? (i := 162) rfl
theorem test11false_100 : ((.test 11 false : FNT), (100 : Nat), ([.n (.test 11 false), .t (ch '-'), .n (.test 12 false)] : List FSym)) ∈ fine := List.mem_of_getElem? (i := 163) rfl
theorem test11false_0 : ((.test 11 false : FNT), (0 : Nat), ([.n (.test 12 false)] : List FSym)) ∈ fine := List.mem_of_getElem? (i := 164) rfl
theorem test12false_95 : ((.test 12 false : FNT), (95 : Nat), ([.n (.test 12 false), .t (ch '*'), .n (.test 13 false)] : List FSym)) ∈ fine := List.mem_of_getElem? (i := 165) rfl
theorem test12false_96 : ((.test 12 false : FNT), (96 : Nat), ([.n (.test 12 false), .t (ch '%'), .n (.test 13 false)] : List FSym)) ∈ fine := List.mem_of_getElem? (i := 166) rfl
theorem test12false_97 : ((.test 12 false : FNT), (97 : Nat), ([.n (.test 12 false), .t (ch '/'), .n (.test 13 false)] : List FSym)) ∈ fine := List.mem_of_getElem? (i := 167) rfl
theorem test12false_98 : ((.test 12 false : FNT), (98 : Nat), ([.n (.test 12 false), .t K.intDiv, .n (.test 13 false)] : List FSym)) ∈ fine := List.mem_of_getElem? (i := 168) rfl
theorem test12false_0 : ((.test 12 false : FNT), (0 : Nat), ([.n (.test 13 false)] : List FSym)) ∈ fine := List.mem_of_getElem? (i := 169) rfl
theorem test13false_91 : ((.test 13 false : FNT), (91 : Nat), ([.t K.not, .n (.test 13 false)] : List FSym)) ∈ fine := List.mem_of_getElem? (i := 170) rfl
theorem test13false_92 : ((.test 13 false : FNT), (92 : Nat), ([.t (ch '-'), .n (.test 13 false)] : List FSym)) ∈ fine := List.mem_of_getElem? (i := 171) rfl
theorem test13false_93 : ((.test 13 false : FNT), (93 : Nat), ([.t (ch '+'), .n (.test 13 false)] : List FSym)) ∈ fine := List.mem_of_getElem? (i := 172) rfl
theorem test13false_94 : ((.test 13 false : FNT), (94 : Nat), ([.t (ch '~'), .n (.test 13 false)] : List FSym)) ∈ fine := List.mem_of_getElem? (i := 173) rfl
theorem test2true_117 : ((.test 2 true : FNT), (117 : Nat), ([.n (.test 2 false), .t K.if_, .n (.any 2), .t K.else_, .n (.test 3 true)] : List FSym)) ∈ fine := List.mem_of_getElem? (i := 174) rfl
theorem test2true_0 : ((.test 2 true : FNT), (0 : Nat), ([.n (.test 3 true)] : List FSym)) ∈ fine := List.mem_of_getElem? (i := 175) rfl
theorem test3true_116 : ((.test 3 true : FNT), (116 : Nat), ([.n (.test 3 false), .t K.is, .n (.test 4 true)] : List FSym)) ∈ fine := List.mem_of_getElem? (i := 176) rfl
theorem test3true_0 : ((.test 3 true : FNT), (0 : Nat), ([.n (.test 4 true)] : List FSym)) ∈ fine := List.mem_of_getElem? (i := 177) rfl
theorem test4true_109 : ((.test 4 true : FNT), (109 : Nat), ([.n (.test 4 false), .t K.or, .n (.test 5 true)] : List FSym)) ∈ fine := List.mem_of_getElem? (i := 178) rfl
theorem test4true_0 : ((.test 4 true : FNT), (0 : Nat), ([.n (.test 5 true)] : List FSym)) ∈ fine := List.mem_of_getElem? (i := 179) rfl
theorem test5true_110 : ((.test 5 true : FNT), (110 : Nat), ([.n (.test 5 false), .t K.and, .n (.test 6 true)] : List FSym)) ∈ fine := List.mem_of_getElem? (i := 180) rfl
theorem test5true_0 : ((.test 5 true : FNT), (0 : Nat), ([.n (.test 6 true)] : List FSym)) ∈ fine := List.mem_of_getElem? (i := 181) rfl
theorem test6true_101 : ((.test 6 true : FNT), (101 : Nat), ([.n (.test 6 false), .t (ch '<'), .n (.test 7 true)] : List FSym)) ∈ fine := List.mem_of_getElem? (i := 182) rfl
theorem test6true_102 : ((.test 6 true : FNT), (102 : Nat), ([.n (.test 6 false), .t (ch '>'), .n (.test 7 true)] : List FSym)) ∈ fine := List.mem_of_getElem? (i := 183) rfl
theorem test6true_103 : ((.test 6 true : FNT), (103 : Nat), ([.n (.test 6 false), .t K.eq, .n (.test 7 true)] : List FSym)) ∈ fine := List.mem_of_getElem? (i := 184) rfl
theorem test6true_104 : ((.test 6 true : FNT), (104 : Nat), ([.n (.test 6 false), .t K.le, .n (.test 7 true)] : List FSym)) ∈ fine := List.mem_of_getElem? (i := 185) rfl
theorem test6true_105 : ((.test 6 true : FNT), (105 : Nat), ([.n (.test 6 false), .t K.ne, .n (.test 7 true)] : List FSym)) ∈ fine := List.mem_of_getElem? (i := 186) rfl
theorem test6true_106 : ((.test 6 true : FNT), (106 : Nat), ([.n (.test 6 false), .t K.ge, .n (.test 7 true)] : List FSym)) ∈ fine := List.mem_of_getElem? (i := 187) rfl
theorem test6true_107 : ((.test 6 true : FNT), (107 : Nat), ([.n (.test 6 false), .t K.in_, .n (.test 7 true)] : List FSym)) ∈ fine := List.mem_of_getElem? (i := 188) rfl
theorem test6true_108 : ((.test 6 true : FNT), (108 : Nat), ([.n (.test 6 false), .t K.not, .t K.in_, .n (.test 7 true)] : List FSym)) ∈ fine := List.mem_of_getElem? (i := 189) rfl
theorem test6true_0 : ((.test 6 true : FNT), (0 : Nat), ([.n (.test 7 true)] : List FSym)) ∈ fine := List.mem_of_getElem? (i := 190) rfl
theorem test7true_111 : ((.test 7 true : FNT), (111 : Nat), ([.n (.test 7 false), .t (ch '|'), .n (.test 8 true)] : List FSym)) ∈ fine := List.mem_of_getElem? (i := 191) rfl
theorem test7true_0 : ((.test 7 true : FNT), (0 : Nat), ([.n (.test 8 true)] : List FSym)) ∈ fine := List.mem_of_getElem? (i := 192) rfl
theorem test8true_113 : ((.test 8 true : FNT), (113 : Nat), ([.n (.test 8 false), .t (ch '^'), .n (.test 9 true)] : List FSym)) ∈ fine := List.mem_of_getElem? (i := 193) rfl
theorem test8true_0 : ((.test 8 true : FNT), (0 : Nat), ([.n (.test 9 true)] : List FSym)) ∈ fine := List.mem_of_getElem? (i := 194) rfl
theorem test9true_112 : ((.test 9 true : FNT), (112 : Nat), ([.n (.test 9 false), .t (ch '&'), .n (.test 10 true)] : List FSym)) ∈ fine := List.mem_of_getElem? (i := 195) rfl
theorem test9true_0 : ((.test 9 true : FNT), (0 : Nat), ([.n (.test 10 true)] : List FSym)) ∈ fine := List.mem_of_getElem? (i := 196) rfl
theorem test10true_114 : ((.test 10 true : FNT), (114 : Nat), ([.n (.test 10 false), .t K.lsh, .n (.test 11 true)] : List FSym)) ∈ fine := List.mem_of_getElem? (i := 197) rfl
theorem test10true_115 : ((.test 10 true : FNT), (115 : Nat), ([.n (.test 10 false), .t K.rsh, .n (.test 11 true)] : List FSym)) ∈ fine := List.mem_of_getElem? (i := 198) rfl
theorem test10true_0 : ((.test 10 true : FNT), (0 : Nat), ([.n (.test 11 true)] : List FSym)) ∈ fine := List.mem_of_getElem? (i := 199) rfl
theorem test11true_99 : ((.test 11 true : FNT), (99 : Nat), ([.n (.test 11 false), .t (ch '+'), .n (.test 12 true)] : List FSym)) ∈ fine := List.mem_of_getElem? (i := 200) rfl
theorem test11true_100 : ((.test 11 true : FNT), (100 : Nat), ([.n (.test 11 false), .t (ch '-'), .n (.test 12 true)] : List FSym)) ∈ fine := List.mem_of_getElem? (i := 201) rfl
theorem test11true_0 : ((.test 11 true : FNT), (0 : Nat), ([.n (.test 12 true)] : List FSym)) ∈ fine := List.mem_of_getElem? (i := 202) rfl
theorem test12true_95 : ((.test 12 true : FNT), (95 : Nat), ([.n (.test 12 false), .t (ch '*'), .n (.test 13 true)] : List FSym)) ∈ fine := List.mem_of_getElem? (i := 203) rfl
theorem test12true_96 : ((.test 12 true : FNT), (96 : Nat), ([.n (.test 12 false), .t (ch '%'), .n (.test 13 true)] : List FSym)) ∈ fine := List.mem_of_getElem? (i := 204) rfl
theorem test12true_97 : ((.test 12 true : FNT), (97 : Nat), ([.n (.test 12 false), .t (ch '/'), .n (.test 13 true)] : List FSym)) ∈ fine := List.mem_of_getElem? (i := 205) rfl
theorem test12true_98 : ((.test 12 true : FNT), (98 : Nat), ([.n (.test 12 false), .t K.intDiv, .n (.test 13 true)] : List FSym)) ∈ fine := List.mem_of_getElem? (i := 206) rfl
theorem test12true_0 : ((.test 12 true : FNT), (0 : Nat), ([.n (.test 13 true)] : List FSym)) ∈ fine := List.mem_of_getElem? (i := 207) rfl
theorem test13true_91 : ((.test 13 true : FNT), (91 : Nat), ([.t K.not, .n (.test 13 true)] : List FSym)) ∈ fine := List.mem_of_getElem? (i := 208) rfl
theorem test13true_92 : ((.test 13 true : FNT), (92 : Nat), ([.t (ch '-'), .n (.test 13 true)] : List FSym)) ∈ fine := List.mem_of_getElem? (i := 209) rfl
theorem test13true_93 : ((.test 13 true : FNT), (93 : Nat), ([.t (ch '+'), .n (.test 13 true)] : List FSym)) ∈ fine := List.mem_of_getElem? (i := 210) rfl
theorem test13true_94 : ((.test 13 true : FNT), (94 : Nat), ([.t (ch '~'), .n (.test 13 true)] : List FSym)) ∈ fine := List.mem_of_getElem? (i := 211) rfl
theorem test13false_89 : ((.test 13 false : FNT), (89 : Nat), ([.n .primaryExpr] : List FSym)) ∈ fine := List.mem_of_getElem? (i := 212) rfl
theorem test13true_90 : ((.test 13 true : FNT), (90 : Nat), ([.t K.lambda, .n .parametersOpt, .t (ch ':'), .n .lambdaBody] : List FSym)) ∈ fine := List.mem_of_getElem? (i := 213) rfl
theorem lambdaBody_85 : ((.lambdaBody : FNT), (85 : Nat), ([.n (.any 2)] : List FSym)) ∈ fine := List.mem_of_getElem? (i := 214) rfl
theorem any3_0 : ((.any 3 : FNT), (0 : Nat), ([.n (.test 3 false)] : List FSym)) ∈ fine := List.mem_of_getElem? (i := 215) rfl
theorem any3_0_1 : ((.any 3 : FNT), (0 : Nat), ([.n (.test 3 true)] : List FSym)) ∈ fine := List.mem_of_getElem? (i := 216) rfl
theorem primaryExpr_0 : ((.primaryExpr : FNT), (0 : Nat), ([.n .primary] : List FSym)) ∈ fine := List.mem_of_getElem? (i := 217) rfl
theorem primaryExpr_0_1 : ((.primaryExpr : FNT), (0 : Nat), ([.n .primaryInt] : List FSym)) ∈ fine := List.mem_of_getElem? (i := 218) rfl
theorem anyStmts_0 : ((.anyStmts : FNT), (0 : Nat), ([.n (.stmts false)] : List FSym)) ∈ fine := List.mem_of_getElem? (i := 219) rfl
theorem anyStmts_0_1 : ((.anyStmts : FNT), (0 : Nat), ([.n (.stmts true)] : List FSym)) ∈ fine := List.mem_of_getElem? (i := 220) rfl
theorem anyIfChain_0 : ((.anyIfChain : FNT), (0 : Nat), ([.n (.ifChain false)] : List FSym)) ∈ fine := List.mem_of_getElem? (i := 221) rfl
theorem anyIfChain_0_1 : ((.anyIfChain : FNT), (0 : Nat), ([.n (.ifChain true)] : List FSym)) ∈ fine := List.mem_of_getElem? (i := 222) rfl

end Verif.Grammar.Fm
