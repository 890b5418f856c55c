import Verif.Model.Fine
import Verif.Proofs.LRCheck
/-
A certificate that the parser tables parse the refined grammar: for every state, the items (production, position of the dot, possible
next tokens as a bit mask) it can be in the middle of. The kernel checks that the items are closed under the actions of the tables.
The tables were generated by a script; nothing here is trusted, `check_all` is a theorem.
-/
namespace Verif.Parser
open Verif Verif.Lexer Verif.LR Verif.Grammar

/-- number of a class (64 and up; tokens have smaller numbers) -/
def fntNum : FNT → Nat
  | .file => 64
  | .suite false => 65
  | .suite true => 66
  | .linebreaksOpt => 67
  | .comments => 68
  | .stmts false => 69
  | .stmts true => 70
  | .stmt false => 71
  | .stmt true => 72
  | .defHeader => 73
  | .defHeaderTypeOpt => 74
  | .blockStmt false => 75
  | .blockStmt true => 76
  | .ifChain false => 77
  | .ifChain true => 78
  | .ifElseBlock false => 79
  | .ifElseBlock true => 80
  | .elif_ => 81
  | .simpleStmt => 82
  | .smallStmtsContinuation => 83
  | .smallStmt => 84
  | .semiOpt => 85
  | .primary => 86
  | .primaryInt => 87
  | .argumentsOpt => 88
  | .arguments => 89
  | .argument => 90
  | .loadArguments => 91
  | .loadArgument => 92
  | .parametersOpt => 93
  | .parametersTypeOpt => 94
  | .parameters => 95
  | .parametersType => 96
  | .parameter => 97
  | .parameterType => 98
  | .expr => 99
  | .exprOpt => 100
  | .tests => 101
  | .testOpt => 102
  | .testsOpt => 103
  | .commaOpt => 104
  | .commas => 105
  | .commasOpt => 106
  | .keyvalue => 107
  | .keyvaluesNoComma => 108
  | .keyvalues => 109
  | .loopVars => 110
  | .string => 111
  | .ident => 112
  | .number => 113
  | .numberInt => 114
  | .forClause false => 115
  | .forClause true => 116
  | .clauses false => 117
  | .clauses true => 118
  | .forClausesWithIfClausesOpt => 119
  | .any 2 => 120
  | .test 2 false => 121
  | .test 3 false => 122
  | .test 4 false => 123
  | .test 5 false => 124
  | .test 6 false => 125
  | .test 7 false => 126
  | .test 8 false => 127
  | .test 9 false => 128
  | .test 10 false => 129
  | .test 11 false => 130
  | .test 12 false => 131
  | .test 13 false => 132
  | .test 2 true => 133
  | .test 3 true => 134
  | .test 4 true => 135
  | .test 5 true => 136
  | .test 6 true => 137
  | .test 7 true => 138
  | .test 8 true => 139
  | .test 9 true => 140
  | .test 10 true => 141
  | .test 11 true => 142
  | .test 12 true => 143
  | .test 13 true => 144
  | .lambdaBody => 145
  | .any 3 => 146
  | .primaryExpr => 147
  | .anyStmts => 148
  | .anyIfChain => 149
  | _ => 0

def fsymNum : FSym → Nat
  | .t k => tokNum k
  | .n a => fntNum a

/-- the productions in numbers -/
def fcode : List (Nat × Nat × List Nat) := [
  (64, 1, [148, 28]),
  (65, 2, [59, 68, 56, 148, 57]),
  (66, 3, [82, 67]),
  (67, 4, []),
  (67, 5, [67, 59]),
  (68, 6, []),
  (68, 7, [68, 27, 59]),
  (68, 8, [68, 59]),
  (69, 9, []),
  (69, 10, [148, 71]),
  (70, 10, [148, 72]),
  (69, 11, [69, 59]),
  (69, 12, [148, 27, 59]),
  (71, 13, [82]),
  (71, 14, [75]),
  (72, 14, [76]),
  (73, 15, [51, 32, 5, 94, 6]),
  (74, 16, [73]),
  (74, 17, [73, 47, 120]),
  (75, 18, [74, 13, 65]),
  (76, 18, [74, 13, 66]),
  (75, 19, [30, 110, 37, 99, 13, 65]),
  (76, 19, [30, 110, 37, 99, 13, 66]),
  (75, 20, [79]),
  (76, 20, [80]),
  (77, 21, [34, 99, 13, 65]),
  (78, 21, [34, 99, 13, 66]),
  (77, 22, [149, 81, 99, 13, 65]),
  (78, 22, [149, 81, 99, 13, 66]),
  (79, 23, [77]),
  (80, 23, [78]),
  (79, 24, [149, 35, 13, 65]),
  (80, 24, [149, 35, 13, 66]),
  (81, 25, [35, 34]),
  (81, 26, [36]),
  (82, 27, [84, 83, 85, 59]),
  (83, 28, []),
  (83, 29, [83, 62, 84]),
  (84, 30, [99]),
  (84, 31, [52, 99]),
  (84, 32, [52]),
  (84, 33, [99, 15, 99]),
  (84, 34, [99, 25, 99]),
  (84, 35, [53]),
  (84, 36, [54]),
  (84, 37, [55]),
  (85, 38, []),
  (85, 39, [62]),
  (86, 40, [112]),
  (86, 41, [113]),
  (87, 41, [114]),
  (86, 42, [111]),
  (86, 43, [86, 11, 32]),
  (86, 44, [40, 5, 106, 111, 105, 91, 106, 6]),
  (86, 45, [147, 5, 88, 6]),
  (86, 46, [147, 17, 99, 18]),
  (86, 47, [147, 17, 100, 13, 102, 18]),
  (86, 48, [147, 17, 100, 13, 102, 13, 102, 18]),
  (86, 49, [17, 103, 18]),
  (86, 50, [17, 120, 119, 18]),
  (86, 51, [19, 107, 119, 20]),
  (86, 52, [19, 109, 20]),
  (86, 53, [19, 101, 104, 20]),
  (86, 54, [5, 103, 6]),
  (88, 55, []),
  (88, 56, [89, 106]),
  (89, 57, [106, 90]),
  (89, 58, [89, 105, 90]),
  (90, 59, [120]),
  (90, 60, [112, 15, 120]),
  (90, 61, [7, 120]),
  (90, 62, [43, 120]),
  (91, 63, [92]),
  (91, 64, [91, 9, 92]),
  (92, 65, [111]),
  (92, 66, [112, 15, 111]),
  (93, 67, []),
  (93, 68, [95, 104]),
  (94, 69, []),
  (94, 70, [96, 104]),
  (95, 71, [97]),
  (95, 72, [95, 9, 97]),
  (96, 73, [98]),
  (96, 74, [96, 9, 98]),
  (97, 75, [112]),
  (97, 76, [112, 15, 120]),
  (97, 77, [7, 112]),
  (97, 78, [7]),
  (97, 79, [43, 112]),
  (98, 80, [97]),
  (98, 81, [112, 13, 120]),
  (98, 82, [112, 13, 120, 15, 120]),
  (98, 83, [7, 112, 13, 120]),
  (98, 84, [43, 112, 13, 120]),
  (99, 85, [120]),
  (99, 86, [99, 9, 146]),
  (100, 87, []),
  (100, 88, [99]),
  (101, 118, [120]),
  (101, 119, [101, 105, 120]),
  (102, 120, []),
  (102, 121, [120]),
  (103, 122, []),
  (103, 123, [101, 106]),
  (104, 124, []),
  (104, 125, [9]),
  (105, 126, [9]),
  (105, 127, [105, 9]),
  (106, 128, []),
  (106, 129, [105]),
  (107, 130, [120, 13, 120]),
  (108, 131, [107]),
  (108, 132, [108, 105, 107]),
  (109, 133, []),
  (109, 134, [108]),
  (109, 135, [108, 105]),
  (110, 136, [147]),
  (110, 137, [110, 9, 147]),
  (111, 138, [50]),
  (112, 139, [32]),
  (113, 140, [33, 11, 33]),
  (113, 141, [33, 11]),
  (113, 142, [11, 33]),
  (114, 143, [33]),
  (115, 144, [30, 110, 37, 122]),
  (116, 144, [30, 110, 37, 134]),
  (117, 145, [115]),
  (118, 145, [116]),
  (117, 146, [117, 34, 122]),
  (118, 146, [117, 34, 134]),
  (119, 147, [117]),
  (119, 147, [118]),
  (119, 148, [119, 117]),
  (119, 148, [119, 118]),
  (120, 0, [121]),
  (120, 0, [133]),
  (121, 117, [121, 34, 120, 35, 122]),
  (121, 0, [122]),
  (122, 116, [122, 38, 123]),
  (122, 0, [123]),
  (123, 109, [123, 49, 124]),
  (123, 0, [124]),
  (124, 110, [124, 26, 125]),
  (124, 0, [125]),
  (125, 101, [125, 14, 126]),
  (125, 102, [125, 16, 126]),
  (125, 103, [125, 29, 126]),
  (125, 104, [125, 41, 126]),
  (125, 105, [125, 42, 126]),
  (125, 106, [125, 31, 126]),
  (125, 107, [125, 37, 126]),
  (125, 108, [125, 48, 37, 126]),
  (125, 0, [126]),
  (126, 111, [126, 21, 127]),
  (126, 0, [127]),
  (127, 113, [127, 23, 128]),
  (127, 0, [128]),
  (128, 112, [128, 22, 129]),
  (128, 0, [129]),
  (129, 114, [129, 45, 130]),
  (129, 115, [129, 46, 130]),
  (129, 0, [130]),
  (130, 99, [130, 8, 131]),
  (130, 100, [130, 10, 131]),
  (130, 0, [131]),
  (131, 95, [131, 7, 132]),
  (131, 96, [131, 4, 132]),
  (131, 97, [131, 12, 132]),
  (131, 98, [131, 44, 132]),
  (131, 0, [132]),
  (132, 91, [48, 132]),
  (132, 92, [10, 132]),
  (132, 93, [8, 132]),
  (132, 94, [24, 132]),
  (133, 117, [121, 34, 120, 35, 134]),
  (133, 0, [134]),
  (134, 116, [122, 38, 135]),
  (134, 0, [135]),
  (135, 109, [123, 49, 136]),
  (135, 0, [136]),
  (136, 110, [124, 26, 137]),
  (136, 0, [137]),
  (137, 101, [125, 14, 138]),
  (137, 102, [125, 16, 138]),
  (137, 103, [125, 29, 138]),
  (137, 104, [125, 41, 138]),
  (137, 105, [125, 42, 138]),
  (137, 106, [125, 31, 138]),
  (137, 107, [125, 37, 138]),
  (137, 108, [125, 48, 37, 138]),
  (137, 0, [138]),
  (138, 111, [126, 21, 139]),
  (138, 0, [139]),
  (139, 113, [127, 23, 140]),
  (139, 0, [140]),
  (140, 112, [128, 22, 141]),
  (140, 0, [141]),
  (141, 114, [129, 45, 142]),
  (141, 115, [129, 46, 142]),
  (141, 0, [142]),
  (142, 99, [130, 8, 143]),
  (142, 100, [130, 10, 143]),
  (142, 0, [143]),
  (143, 95, [131, 7, 144]),
  (143, 96, [131, 4, 144]),
  (143, 97, [131, 12, 144]),
  (143, 98, [131, 44, 144]),
  (143, 0, [144]),
  (144, 91, [48, 144]),
  (144, 92, [10, 144]),
  (144, 93, [8, 144]),
  (144, 94, [24, 144]),
  (132, 89, [147]),
  (144, 90, [39, 93, 13, 145]),
  (145, 85, [120]),
  (146, 0, [122]),
  (146, 0, [134]),
  (147, 0, [86]),
  (147, 0, [87]),
  (148, 0, [69]),
  (148, 0, [70]),
  (149, 0, [77]),
  (149, 0, [78])]

/-- number in the tables of the nonterminal that class `64 + i` refines -/
def baseTab : List Nat := [45, 39, 39, 46, 40, 26, 26, 27, 27, 43, 44, 28, 28, 30, 30, 29, 29, 31, 32, 34, 33, 47, 16, 16, 6, 5, 4, 42, 41, 9, 12, 8, 11, 7, 10, 17, 18, 19, 14, 15, 1, 2, 3, 35, 37, 36, 20, 38, 24, 25, 25, 21, 21, 22, 22, 23, 13, 13, 13, 13, 13, 13, 13, 13, 13, 13, 13, 13, 13, 13, 13, 13, 13, 13, 13, 13, 13, 13, 13, 13, 13, 17, 13, 16, 26, 30]

/-- first tokens of the classes -/
def firstTab : List Nat := [647675602237263136, 576460752303423488, 68963031463890208, 576460752303423488, 576460752437641216, 647675601968827680, 647675601968827680, 71214849531186464, 2251818067296256, 2251799813685248, 2251799813685248, 2251818067296256, 2251818067296256, 17179869184, 17179869184, 17179869184, 17179869184, 103079215104, 68963031463890208, 4611686018427387904, 68963031463890208, 4611686018427387904, 1127012304029728, 8589934592, 1417833146355616, 1417833146355616, 1417833146355104, 1125904201809920, 1125904201809920, 8800387989632, 8800387989632, 8800387989632, 8800387989632, 8800387989632, 8800387989632, 1409037053332768, 1409037053332768, 1409037053332768, 1409037053332768, 1409037053332768, 512, 512, 512, 1409037053332768, 1409037053332768, 1409037053332768, 1127012304029728, 1125899906842624, 4294967296, 8589936640, 8589934592, 1073741824, 1073741824, 1073741824, 1073741824, 1073741824, 1409037053332768, 1408487297518880, 1408487297518880, 1408487297518880, 1408487297518880, 1408487297518880, 1408487297518880, 1408487297518880, 1408487297518880, 1408487297518880, 1408487297518880, 1408487297518880, 1408487297518880, 1409037053332768, 1409037053332768, 1409037053332768, 1409037053332768, 1409037053332768, 1409037053332768, 1409037053332768, 1409037053332768, 1409037053332768, 1409037053332768, 1409037053332768, 282024749303040, 1409037053332768, 1409037053332768, 1127012304029728, 647675601968827680, 17179869184]

/-- which classes derive the empty sequence -/
def nullTab : Nat := 19342813113875643708735544

/-- reductions of each state: production, next tokens -/
def redsTab : List (List (Nat × Nat)) := [
  [(9, 647675602237263136)],
  [],
  [],
  [(1, 2)],
  [(10, 791790790313119008)],
  [(11, 791790790313119008)],
  [],
  [(13, 791790790313119008)],
  [(14, 791790790313119008)],
  [(28, 5188146770730811392)],
  [],
  [],
  [(20, 791790790313119008)],
  [(30, 5188146770730811392)],
  [(32, 5188146770730811392)],
  [(35, 5188146770730811392)],
  [(36, 5188146770730811392)],
  [(37, 5188146770730811392)],
  [(16, 8192)],
  [(23, 791790790313119008)],
  [(85, 5188146806199198272)],
  [],
  [],
  [(89, 5189121405764368336)],
  [(67, 8192)],
  [],
  [],
  [],
  [],
  [(40, 5189121405764501488)],
  [(41, 5189121405764501488)],
  [(42, 5189121405764501488)],
  [],
  [(122, 262144)],
  [(133, 1048576)],
  [(122, 64)],
  [(139, 5189121405764501488)],
  [(143, 5189121405764499440)],
  [],
  [(138, 5189121405764501488)],
  [(12, 791790790313119008)],
  [(38, 576460752303423488)],
  [],
  [],
  [(136, 137438953984)],
  [],
  [],
  [],
  [(31, 5188146770730811392)],
  [],
  [],
  [],
  [(26, 1409037053332768)],
  [],
  [],
  [],
  [],
  [],
  [],
  [],
  [],
  [],
  [],
  [],
  [],
  [],
  [],
  [],
  [],
  [],
  [],
  [],
  [],
  [],
  [],
  [],
  [],
  [],
  [],
  [(55, 64), (128, 1417833146355104)],
  [(87, 8192)],
  [],
  [(124, 8192)],
  [(71, 8704)],
  [(75, 8704)],
  [(78, 8704)],
  [],
  [(91, 5189121405764368336)],
  [(92, 5189121405764368336)],
  [(93, 5189121405764368336)],
  [(94, 5189121405764368336)],
  [(128, 1125899906842624)],
  [],
  [(118, 262656)],
  [(128, 262208)],
  [(131, 1049088)],
  [],
  [(124, 1048576)],
  [(118, 1049088)],
  [(134, 1048576)],
  [],
  [(118, 576)],
  [(141, 5189121405764501488)],
  [(142, 5189121405764501488)],
  [],
  [(39, 576460752303423488)],
  [(18, 791790790313119008)],
  [(6, 648518346475569152)],
  [(4, 791790893392334112)],
  [],
  [],
  [(33, 5188146770730811392)],
  [(34, 5188146770730811392)],
  [(86, 5188146770764669440)],
  [(17, 8192)],
  [],
  [],
  [(25, 1409037053332768)],
  [(95, 5189121405764368336)],
  [(96, 5189121405764368336)],
  [(97, 5189121405764368336)],
  [(98, 5189121405764368336)],
  [(99, 5189103813578319680)],
  [(100, 5189103813578319680)],
  [(101, 5188998260447371840)],
  [(102, 5188998260447371840)],
  [(103, 5188998260447371840)],
  [(104, 5188998260447371840)],
  [(105, 5188998260447371840)],
  [(106, 5188998260447371840)],
  [(107, 5188998260447371840)],
  [],
  [(109, 5188710048210395712)],
  [(110, 5188710048277504576)],
  [(111, 5188998260449468992)],
  [(112, 5188998260462051904)],
  [(113, 5188998260457857600)],
  [(114, 5189103813578318400)],
  [(115, 5189103813578318400)],
  [(116, 5188147098256974400)],
  [],
  [(69, 64)],
  [],
  [(43, 5189121405764501488)],
  [],
  [(128, 64)],
  [],
  [(129, 1417833146355168)],
  [(126, 1417833147666400)],
  [(88, 8192)],
  [],
  [],
  [(68, 8192)],
  [(125, 8192)],
  [],
  [(77, 8704)],
  [(79, 8704)],
  [],
  [(49, 5189121405764501488)],
  [],
  [(147, 1075052544)],
  [(145, 18254921728)],
  [],
  [(129, 262208)],
  [(123, 262208)],
  [],
  [(52, 5189121405764501488)],
  [],
  [],
  [(125, 1048576), (126, 1409037053333280)],
  [],
  [(135, 1048576)],
  [(54, 5189121405764501488)],
  [(140, 5189121405764501488)],
  [(27, 791790893392334112)],
  [(29, 5188146770730811392)],
  [],
  [(3, 215330141088910624)],
  [],
  [(137, 137438953984)],
  [],
  [(24, 791790790313119008)],
  [(108, 5188998260447371840)],
  [],
  [],
  [(124, 64)],
  [(73, 576)],
  [(80, 576)],
  [(75, 576)],
  [(78, 576)],
  [],
  [(21, 791790893392334112)],
  [(45, 5189121405764501488)],
  [(56, 64)],
  [(129, 64)],
  [(57, 576)],
  [(59, 576)],
  [(40, 974599565303792)],
  [],
  [],
  [(127, 1417833147666400)],
  [(46, 5189121405764501488)],
  [(120, 270336)],
  [(90, 5188146806199198272)],
  [(72, 8704)],
  [(76, 8768)],
  [],
  [(50, 5189121405764501488)],
  [(148, 1075052544)],
  [],
  [],
  [(119, 1311296)],
  [(51, 5189121405764501488)],
  [(53, 5189121405764501488)],
  [(130, 1074790912)],
  [(132, 1049088)],
  [],
  [(9, 791790790044683552)],
  [],
  [(8, 648518346475569152)],
  [(5, 791790893392334112)],
  [],
  [(22, 791790893392334112)],
  [(117, 5188146823379067456)],
  [(15, 140737488363520)],
  [(70, 64)],
  [(125, 64)],
  [],
  [(77, 576)],
  [(79, 576)],
  [(58, 576)],
  [],
  [(61, 576)],
  [(62, 576)],
  [],
  [(121, 270336)],
  [],
  [(146, 18254921728)],
  [],
  [],
  [(7, 648518346475569152)],
  [(19, 791790790313119008)],
  [(74, 576)],
  [(81, 576)],
  [],
  [],
  [(60, 576)],
  [(47, 5189121405764501488)],
  [(120, 262144)],
  [(128, 64)],
  [(63, 576)],
  [(65, 576)],
  [],
  [(144, 18254921728)],
  [(2, 791790893392334112)],
  [],
  [(83, 576)],
  [(84, 576)],
  [],
  [],
  [(126, 576)],
  [],
  [(82, 576)],
  [(48, 5189121405764501488)],
  [(44, 5189121405764501488)],
  [(64, 576)],
  [(66, 576)]]

/-- transitions of each state: symbol, next state -/
def transTab : List (List (Nat × Nat)) := [
  [(90, 2)],
  [],
  [(5, 35), (8, 27), (10, 26), (11, 38), (17, 33), (19, 34), (24, 28), (27, 6), (28, 3), (30, 11), (32, 36), (33, 37), (34, 22), (39, 24), (40, 32), (48, 25), (50, 39), (51, 21), (52, 14), (53, 15), (54, 16), (55, 17), (59, 5), (77, 20), (80, 23), (81, 13), (88, 29), (89, 30), (91, 4), (92, 8), (93, 12), (94, 19), (96, 7), (97, 9), (102, 31), (107, 18), (108, 10)],
  [],
  [],
  [],
  [(59, 40)],
  [],
  [],
  [(98, 41)],
  [(13, 42)],
  [(5, 35), (11, 38), (17, 33), (19, 34), (32, 36), (33, 37), (40, 32), (50, 39), (80, 44), (84, 43), (88, 29), (89, 30), (102, 31)],
  [],
  [(9, 47), (15, 45), (25, 46)],
  [(5, 35), (8, 27), (10, 26), (11, 38), (17, 33), (19, 34), (24, 28), (32, 36), (33, 37), (39, 24), (40, 32), (48, 25), (50, 39), (77, 20), (80, 23), (81, 48), (88, 29), (89, 30), (102, 31)],
  [],
  [],
  [],
  [(47, 49)],
  [(35, 51), (36, 52), (95, 50)],
  [(4, 54), (7, 53), (8, 57), (10, 58), (12, 55), (14, 59), (16, 60), (21, 69), (22, 70), (23, 71), (26, 68), (29, 61), (31, 64), (34, 75), (37, 65), (38, 74), (41, 62), (42, 63), (44, 56), (45, 72), (46, 73), (48, 66), (49, 67)],
  [(32, 76)],
  [(5, 35), (8, 27), (10, 26), (11, 38), (17, 33), (19, 34), (24, 28), (32, 36), (33, 37), (39, 24), (40, 32), (48, 25), (50, 39), (77, 20), (80, 23), (81, 77), (88, 29), (89, 30), (102, 31)],
  [(5, 79), (11, 78), (17, 80)],
  [(7, 85), (32, 36), (43, 86), (71, 83), (72, 82), (73, 81), (88, 84)],
  [(5, 35), (8, 27), (10, 26), (11, 38), (17, 33), (19, 34), (24, 28), (32, 36), (33, 37), (39, 24), (40, 32), (48, 25), (50, 39), (77, 87), (80, 23), (88, 29), (89, 30), (102, 31)],
  [(5, 35), (8, 27), (10, 26), (11, 38), (17, 33), (19, 34), (24, 28), (32, 36), (33, 37), (39, 24), (40, 32), (48, 25), (50, 39), (77, 88), (80, 23), (88, 29), (89, 30), (102, 31)],
  [(5, 35), (8, 27), (10, 26), (11, 38), (17, 33), (19, 34), (24, 28), (32, 36), (33, 37), (39, 24), (40, 32), (48, 25), (50, 39), (77, 89), (80, 23), (88, 29), (89, 30), (102, 31)],
  [(5, 35), (8, 27), (10, 26), (11, 38), (17, 33), (19, 34), (24, 28), (32, 36), (33, 37), (39, 24), (40, 32), (48, 25), (50, 39), (77, 90), (80, 23), (88, 29), (89, 30), (102, 31)],
  [],
  [],
  [],
  [(5, 91)],
  [(5, 35), (8, 27), (10, 26), (11, 38), (17, 33), (19, 34), (24, 28), (32, 36), (33, 37), (39, 24), (40, 32), (48, 25), (50, 39), (77, 93), (79, 92), (80, 23), (83, 94), (88, 29), (89, 30), (102, 31)],
  [(5, 35), (8, 27), (10, 26), (11, 38), (17, 33), (19, 34), (24, 28), (32, 36), (33, 37), (39, 24), (40, 32), (48, 25), (50, 39), (77, 98), (80, 23), (83, 97), (88, 29), (89, 30), (99, 95), (100, 96), (101, 99), (102, 31)],
  [(5, 35), (8, 27), (10, 26), (11, 38), (17, 33), (19, 34), (24, 28), (32, 36), (33, 37), (39, 24), (40, 32), (48, 25), (50, 39), (77, 101), (79, 100), (80, 23), (83, 94), (88, 29), (89, 30), (102, 31)],
  [],
  [(11, 102)],
  [(33, 103)],
  [],
  [],
  [(62, 105), (111, 104)],
  [(5, 35), (8, 27), (10, 26), (11, 38), (17, 33), (19, 34), (24, 28), (32, 36), (33, 37), (39, 24), (40, 32), (48, 25), (50, 39), (52, 14), (53, 15), (54, 16), (55, 17), (59, 107), (77, 20), (80, 23), (81, 13), (88, 29), (89, 30), (96, 108), (97, 9), (102, 31), (103, 106)],
  [(9, 110), (37, 109)],
  [(5, 79), (11, 78), (17, 80)],
  [(5, 35), (8, 27), (10, 26), (11, 38), (17, 33), (19, 34), (24, 28), (32, 36), (33, 37), (39, 24), (40, 32), (48, 25), (50, 39), (77, 20), (80, 23), (81, 111), (88, 29), (89, 30), (102, 31)],
  [(5, 35), (8, 27), (10, 26), (11, 38), (17, 33), (19, 34), (24, 28), (32, 36), (33, 37), (39, 24), (40, 32), (48, 25), (50, 39), (77, 20), (80, 23), (81, 112), (88, 29), (89, 30), (102, 31)],
  [(5, 35), (8, 27), (10, 26), (11, 38), (17, 33), (19, 34), (24, 28), (32, 36), (33, 37), (39, 24), (40, 32), (48, 25), (50, 39), (77, 113), (80, 23), (88, 29), (89, 30), (102, 31)],
  [(9, 47)],
  [(5, 35), (8, 27), (10, 26), (11, 38), (17, 33), (19, 34), (24, 28), (32, 36), (33, 37), (39, 24), (40, 32), (48, 25), (50, 39), (77, 114), (80, 23), (88, 29), (89, 30), (102, 31)],
  [(5, 35), (8, 27), (10, 26), (11, 38), (17, 33), (19, 34), (24, 28), (32, 36), (33, 37), (39, 24), (40, 32), (48, 25), (50, 39), (77, 20), (80, 23), (81, 115), (88, 29), (89, 30), (102, 31)],
  [(13, 116), (34, 117)],
  [],
  [(5, 35), (8, 27), (10, 26), (11, 38), (17, 33), (19, 34), (24, 28), (32, 36), (33, 37), (39, 24), (40, 32), (48, 25), (50, 39), (77, 118), (80, 23), (88, 29), (89, 30), (102, 31)],
  [(5, 35), (8, 27), (10, 26), (11, 38), (17, 33), (19, 34), (24, 28), (32, 36), (33, 37), (39, 24), (40, 32), (48, 25), (50, 39), (77, 119), (80, 23), (88, 29), (89, 30), (102, 31)],
  [(5, 35), (8, 27), (10, 26), (11, 38), (17, 33), (19, 34), (24, 28), (32, 36), (33, 37), (39, 24), (40, 32), (48, 25), (50, 39), (77, 120), (80, 23), (88, 29), (89, 30), (102, 31)],
  [(5, 35), (8, 27), (10, 26), (11, 38), (17, 33), (19, 34), (24, 28), (32, 36), (33, 37), (39, 24), (40, 32), (48, 25), (50, 39), (77, 121), (80, 23), (88, 29), (89, 30), (102, 31)],
  [(5, 35), (8, 27), (10, 26), (11, 38), (17, 33), (19, 34), (24, 28), (32, 36), (33, 37), (39, 24), (40, 32), (48, 25), (50, 39), (77, 122), (80, 23), (88, 29), (89, 30), (102, 31)],
  [(5, 35), (8, 27), (10, 26), (11, 38), (17, 33), (19, 34), (24, 28), (32, 36), (33, 37), (39, 24), (40, 32), (48, 25), (50, 39), (77, 123), (80, 23), (88, 29), (89, 30), (102, 31)],
  [(5, 35), (8, 27), (10, 26), (11, 38), (17, 33), (19, 34), (24, 28), (32, 36), (33, 37), (39, 24), (40, 32), (48, 25), (50, 39), (77, 124), (80, 23), (88, 29), (89, 30), (102, 31)],
  [(5, 35), (8, 27), (10, 26), (11, 38), (17, 33), (19, 34), (24, 28), (32, 36), (33, 37), (39, 24), (40, 32), (48, 25), (50, 39), (77, 125), (80, 23), (88, 29), (89, 30), (102, 31)],
  [(5, 35), (8, 27), (10, 26), (11, 38), (17, 33), (19, 34), (24, 28), (32, 36), (33, 37), (39, 24), (40, 32), (48, 25), (50, 39), (77, 126), (80, 23), (88, 29), (89, 30), (102, 31)],
  [(5, 35), (8, 27), (10, 26), (11, 38), (17, 33), (19, 34), (24, 28), (32, 36), (33, 37), (39, 24), (40, 32), (48, 25), (50, 39), (77, 127), (80, 23), (88, 29), (89, 30), (102, 31)],
  [(5, 35), (8, 27), (10, 26), (11, 38), (17, 33), (19, 34), (24, 28), (32, 36), (33, 37), (39, 24), (40, 32), (48, 25), (50, 39), (77, 128), (80, 23), (88, 29), (89, 30), (102, 31)],
  [(5, 35), (8, 27), (10, 26), (11, 38), (17, 33), (19, 34), (24, 28), (32, 36), (33, 37), (39, 24), (40, 32), (48, 25), (50, 39), (77, 129), (80, 23), (88, 29), (89, 30), (102, 31)],
  [(5, 35), (8, 27), (10, 26), (11, 38), (17, 33), (19, 34), (24, 28), (32, 36), (33, 37), (39, 24), (40, 32), (48, 25), (50, 39), (77, 130), (80, 23), (88, 29), (89, 30), (102, 31)],
  [(37, 131)],
  [(5, 35), (8, 27), (10, 26), (11, 38), (17, 33), (19, 34), (24, 28), (32, 36), (33, 37), (39, 24), (40, 32), (48, 25), (50, 39), (77, 132), (80, 23), (88, 29), (89, 30), (102, 31)],
  [(5, 35), (8, 27), (10, 26), (11, 38), (17, 33), (19, 34), (24, 28), (32, 36), (33, 37), (39, 24), (40, 32), (48, 25), (50, 39), (77, 133), (80, 23), (88, 29), (89, 30), (102, 31)],
  [(5, 35), (8, 27), (10, 26), (11, 38), (17, 33), (19, 34), (24, 28), (32, 36), (33, 37), (39, 24), (40, 32), (48, 25), (50, 39), (77, 134), (80, 23), (88, 29), (89, 30), (102, 31)],
  [(5, 35), (8, 27), (10, 26), (11, 38), (17, 33), (19, 34), (24, 28), (32, 36), (33, 37), (39, 24), (40, 32), (48, 25), (50, 39), (77, 135), (80, 23), (88, 29), (89, 30), (102, 31)],
  [(5, 35), (8, 27), (10, 26), (11, 38), (17, 33), (19, 34), (24, 28), (32, 36), (33, 37), (39, 24), (40, 32), (48, 25), (50, 39), (77, 136), (80, 23), (88, 29), (89, 30), (102, 31)],
  [(5, 35), (8, 27), (10, 26), (11, 38), (17, 33), (19, 34), (24, 28), (32, 36), (33, 37), (39, 24), (40, 32), (48, 25), (50, 39), (77, 137), (80, 23), (88, 29), (89, 30), (102, 31)],
  [(5, 35), (8, 27), (10, 26), (11, 38), (17, 33), (19, 34), (24, 28), (32, 36), (33, 37), (39, 24), (40, 32), (48, 25), (50, 39), (77, 138), (80, 23), (88, 29), (89, 30), (102, 31)],
  [(5, 35), (8, 27), (10, 26), (11, 38), (17, 33), (19, 34), (24, 28), (32, 36), (33, 37), (39, 24), (40, 32), (48, 25), (50, 39), (77, 139), (80, 23), (88, 29), (89, 30), (102, 31)],
  [(5, 35), (8, 27), (10, 26), (11, 38), (17, 33), (19, 34), (24, 28), (32, 36), (33, 37), (39, 24), (40, 32), (48, 25), (50, 39), (77, 140), (80, 23), (88, 29), (89, 30), (102, 31)],
  [(5, 141)],
  [(9, 47), (13, 142)],
  [(32, 143)],
  [(9, 148), (66, 147), (67, 146), (69, 145), (70, 144)],
  [(5, 35), (8, 27), (10, 26), (11, 38), (17, 33), (19, 34), (24, 28), (32, 36), (33, 37), (39, 24), (40, 32), (48, 25), (50, 39), (77, 20), (80, 23), (81, 149), (82, 150), (88, 29), (89, 30), (102, 31)],
  [(13, 151)],
  [(9, 153), (65, 152)],
  [],
  [(15, 154)],
  [(32, 36), (88, 155)],
  [(32, 36), (88, 156)],
  [],
  [],
  [],
  [],
  [(9, 148), (66, 147), (67, 157)],
  [(18, 158)],
  [(4, 54), (7, 53), (8, 57), (10, 58), (12, 55), (14, 59), (16, 60), (21, 69), (22, 70), (23, 71), (26, 68), (29, 61), (30, 162), (31, 64), (34, 75), (37, 65), (38, 74), (41, 62), (42, 63), (44, 56), (45, 72), (46, 73), (48, 66), (49, 67), (85, 161), (86, 160), (87, 159)],
  [(9, 148), (66, 163), (67, 164)],
  [(30, 162), (85, 161), (86, 160), (87, 165)],
  [(20, 166)],
  [(9, 169), (65, 167), (66, 168)],
  [(4, 54), (7, 53), (8, 57), (10, 58), (12, 55), (13, 170), (14, 59), (16, 60), (21, 69), (22, 70), (23, 71), (26, 68), (29, 61), (31, 64), (34, 75), (37, 65), (38, 74), (41, 62), (42, 63), (44, 56), (45, 72), (46, 73), (48, 66), (49, 67)],
  [(9, 148), (66, 171)],
  [(6, 172)],
  [(4, 54), (7, 53), (8, 57), (10, 58), (12, 55), (14, 59), (16, 60), (21, 69), (22, 70), (23, 71), (26, 68), (29, 61), (31, 64), (34, 75), (37, 65), (38, 74), (41, 62), (42, 63), (44, 56), (45, 72), (46, 73), (48, 66), (49, 67)],
  [(33, 173)],
  [],
  [(59, 174)],
  [(5, 35), (8, 27), (10, 26), (11, 38), (17, 33), (19, 34), (24, 28), (32, 36), (33, 37), (39, 24), (40, 32), (48, 25), (50, 39), (52, 14), (53, 15), (54, 16), (55, 17), (77, 20), (80, 23), (81, 13), (88, 29), (89, 30), (97, 175), (102, 31)],
  [],
  [(104, 176)],
  [(110, 177)],
  [(5, 35), (8, 27), (10, 26), (11, 38), (17, 33), (19, 34), (24, 28), (32, 36), (33, 37), (39, 24), (40, 32), (48, 25), (50, 39), (77, 20), (80, 23), (81, 178), (88, 29), (89, 30), (102, 31)],
  [(5, 35), (11, 38), (17, 33), (19, 34), (32, 36), (33, 37), (40, 32), (50, 39), (80, 179), (88, 29), (89, 30), (102, 31)],
  [(9, 47)],
  [(9, 47)],
  [(4, 54), (7, 53), (8, 57), (10, 58), (12, 55), (14, 59), (16, 60), (21, 69), (22, 70), (23, 71), (26, 68), (29, 61), (31, 64), (37, 65), (38, 74), (41, 62), (42, 63), (44, 56), (45, 72), (46, 73), (48, 66), (49, 67)],
  [(4, 54), (7, 53), (8, 57), (10, 58), (12, 55), (14, 59), (16, 60), (21, 69), (22, 70), (23, 71), (26, 68), (29, 61), (31, 64), (34, 75), (37, 65), (38, 74), (41, 62), (42, 63), (44, 56), (45, 72), (46, 73), (48, 66), (49, 67)],
  [(9, 47), (13, 180)],
  [(5, 35), (8, 27), (10, 26), (11, 38), (17, 33), (19, 34), (24, 28), (32, 36), (33, 37), (39, 24), (40, 32), (48, 25), (50, 39), (52, 14), (53, 15), (54, 16), (55, 17), (59, 107), (77, 20), (80, 23), (81, 13), (88, 29), (89, 30), (96, 108), (97, 9), (102, 31), (103, 181)],
  [],
  [],
  [],
  [],
  [],
  [(4, 54), (7, 53), (12, 55), (44, 56)],
  [(4, 54), (7, 53), (12, 55), (44, 56)],
  [(4, 54), (7, 53), (8, 57), (10, 58), (12, 55), (21, 69), (22, 70), (23, 71), (44, 56), (45, 72), (46, 73)],
  [(4, 54), (7, 53), (8, 57), (10, 58), (12, 55), (21, 69), (22, 70), (23, 71), (44, 56), (45, 72), (46, 73)],
  [(4, 54), (7, 53), (8, 57), (10, 58), (12, 55), (21, 69), (22, 70), (23, 71), (44, 56), (45, 72), (46, 73)],
  [(4, 54), (7, 53), (8, 57), (10, 58), (12, 55), (21, 69), (22, 70), (23, 71), (44, 56), (45, 72), (46, 73)],
  [(4, 54), (7, 53), (8, 57), (10, 58), (12, 55), (21, 69), (22, 70), (23, 71), (44, 56), (45, 72), (46, 73)],
  [(4, 54), (7, 53), (8, 57), (10, 58), (12, 55), (21, 69), (22, 70), (23, 71), (44, 56), (45, 72), (46, 73)],
  [(4, 54), (7, 53), (8, 57), (10, 58), (12, 55), (21, 69), (22, 70), (23, 71), (44, 56), (45, 72), (46, 73)],
  [(5, 35), (8, 27), (10, 26), (11, 38), (17, 33), (19, 34), (24, 28), (32, 36), (33, 37), (39, 24), (40, 32), (48, 25), (50, 39), (77, 182), (80, 23), (88, 29), (89, 30), (102, 31)],
  [(4, 54), (7, 53), (8, 57), (10, 58), (12, 55), (14, 59), (16, 60), (21, 69), (22, 70), (23, 71), (26, 68), (29, 61), (31, 64), (37, 65), (41, 62), (42, 63), (44, 56), (45, 72), (46, 73), (48, 66)],
  [(4, 54), (7, 53), (8, 57), (10, 58), (12, 55), (14, 59), (16, 60), (21, 69), (22, 70), (23, 71), (29, 61), (31, 64), (37, 65), (41, 62), (42, 63), (44, 56), (45, 72), (46, 73), (48, 66)],
  [(4, 54), (7, 53), (8, 57), (10, 58), (12, 55), (22, 70), (23, 71), (44, 56), (45, 72), (46, 73)],
  [(4, 54), (7, 53), (8, 57), (10, 58), (12, 55), (44, 56), (45, 72), (46, 73)],
  [(4, 54), (7, 53), (8, 57), (10, 58), (12, 55), (22, 70), (44, 56), (45, 72), (46, 73)],
  [(4, 54), (7, 53), (8, 57), (10, 58), (12, 55), (44, 56)],
  [(4, 54), (7, 53), (8, 57), (10, 58), (12, 55), (44, 56)],
  [(4, 54), (7, 53), (8, 57), (10, 58), (12, 55), (14, 59), (16, 60), (21, 69), (22, 70), (23, 71), (26, 68), (29, 61), (31, 64), (37, 65), (41, 62), (42, 63), (44, 56), (45, 72), (46, 73), (48, 66), (49, 67)],
  [(4, 54), (7, 53), (8, 57), (10, 58), (12, 55), (14, 59), (16, 60), (21, 69), (22, 70), (23, 71), (26, 68), (29, 61), (31, 64), (34, 75), (35, 183), (37, 65), (38, 74), (41, 62), (42, 63), (44, 56), (45, 72), (46, 73), (48, 66), (49, 67)],
  [(7, 189), (32, 36), (43, 190), (71, 187), (74, 186), (75, 185), (76, 184), (88, 188)],
  [(5, 35), (8, 27), (10, 26), (11, 38), (17, 33), (19, 34), (24, 28), (32, 36), (33, 37), (39, 24), (40, 32), (48, 25), (50, 39), (52, 14), (53, 15), (54, 16), (55, 17), (59, 107), (77, 20), (80, 23), (81, 13), (88, 29), (89, 30), (96, 108), (97, 9), (102, 31), (103, 191)],
  [],
  [(6, 192)],
  [(9, 148), (66, 194), (67, 193)],
  [(5, 35), (7, 198), (8, 27), (10, 26), (11, 38), (17, 33), (19, 34), (24, 28), (32, 36), (33, 37), (39, 24), (40, 32), (43, 199), (48, 25), (50, 39), (68, 195), (77, 196), (80, 23), (88, 197), (89, 30), (102, 31)],
  [(9, 200)],
  [],
  [(9, 47), (18, 201)],
  [(13, 202)],
  [(5, 35), (8, 27), (10, 26), (11, 38), (17, 33), (19, 34), (24, 28), (32, 36), (33, 37), (39, 24), (40, 32), (48, 25), (50, 39), (77, 20), (80, 23), (81, 203), (88, 29), (89, 30), (102, 31)],
  [],
  [(7, 85), (32, 36), (43, 86), (71, 204), (88, 84)],
  [(5, 35), (8, 27), (10, 26), (11, 38), (17, 33), (19, 34), (24, 28), (32, 36), (33, 37), (39, 24), (40, 32), (48, 25), (50, 39), (77, 205), (80, 23), (88, 29), (89, 30), (102, 31)],
  [],
  [],
  [(50, 39), (102, 206)],
  [],
  [(18, 207), (30, 162), (85, 161), (86, 208)],
  [(34, 209)],
  [],
  [(5, 35), (11, 38), (17, 33), (19, 34), (32, 36), (33, 37), (40, 32), (50, 39), (80, 44), (84, 210), (88, 29), (89, 30), (102, 31)],
  [(5, 35), (8, 27), (9, 200), (10, 26), (11, 38), (17, 33), (19, 34), (24, 28), (32, 36), (33, 37), (39, 24), (40, 32), (48, 25), (50, 39), (77, 211), (80, 23), (88, 29), (89, 30), (102, 31)],
  [],
  [(20, 212), (30, 162), (85, 161), (86, 208)],
  [],
  [(20, 213)],
  [(5, 35), (8, 27), (9, 200), (10, 26), (11, 38), (17, 33), (19, 34), (24, 28), (32, 36), (33, 37), (39, 24), (40, 32), (48, 25), (50, 39), (77, 211), (80, 23), (88, 29), (89, 30), (102, 31)],
  [],
  [(5, 35), (8, 27), (10, 26), (11, 38), (17, 33), (19, 34), (24, 28), (32, 36), (33, 37), (39, 24), (40, 32), (48, 25), (50, 39), (77, 214), (80, 23), (88, 29), (89, 30), (102, 31)],
  [(5, 35), (8, 27), (9, 200), (10, 26), (11, 38), (17, 33), (19, 34), (24, 28), (32, 36), (33, 37), (39, 24), (40, 32), (48, 25), (50, 39), (77, 216), (80, 23), (88, 29), (89, 30), (99, 215), (102, 31)],
  [],
  [],
  [],
  [],
  [(27, 218), (56, 217), (59, 219)],
  [(59, 220)],
  [(9, 47), (13, 221)],
  [(5, 79), (11, 78), (17, 80)],
  [(5, 35), (8, 27), (10, 26), (11, 38), (17, 33), (19, 34), (24, 28), (32, 36), (33, 37), (39, 24), (40, 32), (48, 25), (50, 39), (52, 14), (53, 15), (54, 16), (55, 17), (59, 107), (77, 20), (80, 23), (81, 13), (88, 29), (89, 30), (96, 108), (97, 9), (102, 31), (103, 222)],
  [],
  [(4, 54), (7, 53), (8, 57), (10, 58), (12, 55), (21, 69), (22, 70), (23, 71), (44, 56), (45, 72), (46, 73)],
  [(5, 35), (8, 27), (10, 26), (11, 38), (17, 33), (19, 34), (24, 28), (32, 36), (33, 37), (39, 24), (40, 32), (48, 25), (50, 39), (77, 223), (80, 23), (88, 29), (89, 30), (102, 31)],
  [(6, 224)],
  [(9, 226), (65, 225)],
  [],
  [],
  [(13, 227), (15, 154)],
  [(32, 36), (88, 228)],
  [(32, 36), (88, 229)],
  [],
  [],
  [],
  [(5, 35), (7, 198), (8, 27), (9, 200), (10, 26), (11, 38), (17, 33), (19, 34), (24, 28), (32, 36), (33, 37), (39, 24), (40, 32), (43, 199), (48, 25), (50, 39), (68, 230), (77, 196), (80, 23), (88, 197), (89, 30), (102, 31)],
  [],
  [(4, 54), (7, 53), (8, 57), (10, 58), (12, 55), (14, 59), (16, 60), (21, 69), (22, 70), (23, 71), (26, 68), (29, 61), (31, 64), (34, 75), (37, 65), (38, 74), (41, 62), (42, 63), (44, 56), (45, 72), (46, 73), (48, 66), (49, 67)],
  [(15, 231)],
  [(5, 35), (8, 27), (10, 26), (11, 38), (17, 33), (19, 34), (24, 28), (32, 36), (33, 37), (39, 24), (40, 32), (48, 25), (50, 39), (77, 232), (80, 23), (88, 29), (89, 30), (102, 31)],
  [(5, 35), (8, 27), (10, 26), (11, 38), (17, 33), (19, 34), (24, 28), (32, 36), (33, 37), (39, 24), (40, 32), (48, 25), (50, 39), (77, 233), (80, 23), (88, 29), (89, 30), (102, 31)],
  [],
  [],
  [(5, 35), (8, 27), (10, 26), (11, 38), (17, 33), (19, 34), (24, 28), (32, 36), (33, 37), (39, 24), (40, 32), (48, 25), (50, 39), (77, 235), (78, 234), (80, 23), (88, 29), (89, 30), (102, 31)],
  [],
  [],
  [(4, 54), (7, 53), (8, 57), (10, 58), (12, 55), (14, 59), (16, 60), (21, 69), (22, 70), (23, 71), (26, 68), (29, 61), (31, 64), (34, 75), (37, 65), (38, 74), (41, 62), (42, 63), (44, 56), (45, 72), (46, 73), (48, 66), (49, 67)],
  [(9, 148), (66, 236)],
  [],
  [(34, 209)],
  [(5, 35), (8, 27), (10, 26), (11, 38), (17, 33), (19, 34), (24, 28), (32, 36), (33, 37), (39, 24), (40, 32), (48, 25), (50, 39), (77, 237), (80, 23), (88, 29), (89, 30), (102, 31)],
  [(9, 110), (37, 238)],
  [(4, 54), (7, 53), (8, 57), (10, 58), (12, 55), (14, 59), (16, 60), (21, 69), (22, 70), (23, 71), (26, 68), (29, 61), (31, 64), (34, 75), (37, 65), (38, 74), (41, 62), (42, 63), (44, 56), (45, 72), (46, 73), (48, 66), (49, 67)],
  [],
  [],
  [(4, 54), (7, 53), (8, 57), (10, 58), (12, 55), (14, 59), (16, 60), (21, 69), (22, 70), (23, 71), (26, 68), (29, 61), (31, 64), (34, 75), (37, 65), (38, 74), (41, 62), (42, 63), (44, 56), (45, 72), (46, 73), (48, 66), (49, 67)],
  [],
  [(4, 54), (7, 53), (8, 57), (10, 58), (12, 55), (13, 170), (14, 59), (16, 60), (21, 69), (22, 70), (23, 71), (26, 68), (29, 61), (31, 64), (34, 75), (37, 65), (38, 74), (41, 62), (42, 63), (44, 56), (45, 72), (46, 73), (48, 66), (49, 67)],
  [(90, 239)],
  [(59, 240)],
  [],
  [],
  [(5, 35), (8, 27), (10, 26), (11, 38), (17, 33), (19, 34), (24, 28), (32, 36), (33, 37), (39, 24), (40, 32), (48, 25), (50, 39), (52, 14), (53, 15), (54, 16), (55, 17), (59, 107), (77, 20), (80, 23), (81, 13), (88, 29), (89, 30), (96, 108), (97, 9), (102, 31), (103, 241)],
  [],
  [(4, 54), (7, 53), (8, 57), (10, 58), (12, 55), (14, 59), (16, 60), (21, 69), (22, 70), (23, 71), (26, 68), (29, 61), (31, 64), (37, 65), (38, 74), (41, 62), (42, 63), (44, 56), (45, 72), (46, 73), (48, 66), (49, 67)],
  [],
  [],
  [(7, 189), (32, 36), (43, 190), (71, 187), (74, 242), (88, 188)],
  [(5, 35), (8, 27), (10, 26), (11, 38), (17, 33), (19, 34), (24, 28), (32, 36), (33, 37), (39, 24), (40, 32), (48, 25), (50, 39), (77, 243), (80, 23), (88, 29), (89, 30), (102, 31)],
  [(13, 244)],
  [(13, 245)],
  [],
  [(5, 35), (8, 27), (10, 26), (11, 38), (17, 33), (19, 34), (24, 28), (32, 36), (33, 37), (39, 24), (40, 32), (48, 25), (50, 39), (77, 246), (80, 23), (88, 29), (89, 30), (102, 31)],
  [(4, 54), (7, 53), (8, 57), (10, 58), (12, 55), (14, 59), (16, 60), (21, 69), (22, 70), (23, 71), (26, 68), (29, 61), (31, 64), (34, 75), (37, 65), (38, 74), (41, 62), (42, 63), (44, 56), (45, 72), (46, 73), (48, 66), (49, 67)],
  [(4, 54), (7, 53), (8, 57), (10, 58), (12, 55), (14, 59), (16, 60), (21, 69), (22, 70), (23, 71), (26, 68), (29, 61), (31, 64), (34, 75), (37, 65), (38, 74), (41, 62), (42, 63), (44, 56), (45, 72), (46, 73), (48, 66), (49, 67)],
  [(13, 248), (18, 247)],
  [(4, 54), (7, 53), (8, 57), (10, 58), (12, 55), (14, 59), (16, 60), (21, 69), (22, 70), (23, 71), (26, 68), (29, 61), (31, 64), (34, 75), (37, 65), (38, 74), (41, 62), (42, 63), (44, 56), (45, 72), (46, 73), (48, 66), (49, 67)],
  [(9, 200), (32, 36), (50, 39), (88, 252), (102, 251), (105, 250), (106, 249)],
  [(4, 54), (7, 53), (8, 57), (10, 58), (12, 55), (14, 59), (16, 60), (21, 69), (22, 70), (23, 71), (26, 68), (29, 61), (31, 64), (37, 65), (38, 74), (41, 62), (42, 63), (44, 56), (45, 72), (46, 73), (48, 66), (49, 67)],
  [(5, 35), (8, 27), (10, 26), (11, 38), (17, 33), (19, 34), (24, 28), (32, 36), (33, 37), (39, 24), (40, 32), (48, 25), (50, 39), (77, 253), (80, 23), (88, 29), (89, 30), (102, 31)],
  [(5, 35), (8, 27), (10, 26), (11, 38), (17, 33), (19, 34), (24, 28), (27, 6), (30, 11), (32, 36), (33, 37), (34, 22), (39, 24), (40, 32), (48, 25), (50, 39), (51, 21), (52, 14), (53, 15), (54, 16), (55, 17), (57, 254), (59, 5), (77, 20), (80, 23), (81, 13), (88, 29), (89, 30), (91, 4), (92, 8), (93, 12), (94, 19), (96, 7), (97, 9), (102, 31), (107, 18), (108, 10)],
  [],
  [],
  [],
  [(4, 54), (7, 53), (8, 57), (10, 58), (12, 55), (14, 59), (15, 255), (16, 60), (21, 69), (22, 70), (23, 71), (26, 68), (29, 61), (31, 64), (34, 75), (37, 65), (38, 74), (41, 62), (42, 63), (44, 56), (45, 72), (46, 73), (48, 66), (49, 67)],
  [(5, 35), (8, 27), (10, 26), (11, 38), (17, 33), (19, 34), (24, 28), (32, 36), (33, 37), (39, 24), (40, 32), (48, 25), (50, 39), (77, 256), (80, 23), (88, 29), (89, 30), (102, 31)],
  [(5, 35), (8, 27), (10, 26), (11, 38), (17, 33), (19, 34), (24, 28), (32, 36), (33, 37), (39, 24), (40, 32), (48, 25), (50, 39), (77, 257), (80, 23), (88, 29), (89, 30), (102, 31)],
  [(4, 54), (7, 53), (8, 57), (10, 58), (12, 55), (14, 59), (16, 60), (21, 69), (22, 70), (23, 71), (26, 68), (29, 61), (31, 64), (34, 75), (37, 65), (38, 74), (41, 62), (42, 63), (44, 56), (45, 72), (46, 73), (48, 66), (49, 67)],
  [],
  [(5, 35), (8, 27), (10, 26), (11, 38), (17, 33), (19, 34), (24, 28), (32, 36), (33, 37), (39, 24), (40, 32), (48, 25), (50, 39), (77, 235), (78, 258), (80, 23), (88, 29), (89, 30), (102, 31)],
  [(9, 260), (66, 147), (67, 259)],
  [],
  [],
  [(15, 261)],
  [(4, 54), (7, 53), (8, 57), (10, 58), (12, 55), (14, 59), (16, 60), (21, 69), (22, 70), (23, 71), (26, 68), (29, 61), (31, 64), (37, 65), (38, 74), (41, 62), (42, 63), (44, 56), (45, 72), (46, 73), (48, 66), (49, 67)],
  [],
  [(5, 35), (8, 27), (10, 26), (11, 38), (17, 33), (19, 34), (24, 28), (32, 36), (33, 37), (39, 24), (40, 32), (48, 25), (50, 39), (77, 262), (80, 23), (88, 29), (89, 30), (102, 31)],
  [(4, 54), (7, 53), (8, 57), (10, 58), (12, 55), (14, 59), (16, 60), (21, 69), (22, 70), (23, 71), (26, 68), (29, 61), (31, 64), (34, 75), (37, 65), (38, 74), (41, 62), (42, 63), (44, 56), (45, 72), (46, 73), (48, 66), (49, 67)],
  [(4, 54), (7, 53), (8, 57), (10, 58), (12, 55), (14, 59), (16, 60), (21, 69), (22, 70), (23, 71), (26, 68), (29, 61), (31, 64), (34, 75), (37, 65), (38, 74), (41, 62), (42, 63), (44, 56), (45, 72), (46, 73), (48, 66), (49, 67)],
  [(18, 263)],
  [(6, 264)],
  [(32, 36), (50, 39), (88, 252), (102, 251), (105, 265)],
  [(50, 39), (102, 266)],
  [(4, 54), (7, 53), (8, 57), (10, 58), (12, 55), (14, 59), (16, 60), (21, 69), (22, 70), (23, 71), (26, 68), (29, 61), (31, 64), (34, 75), (37, 65), (38, 74), (41, 62), (42, 63), (44, 56), (45, 72), (46, 73), (48, 66), (49, 67)],
  [],
  [],
  [],
  []]

/-- classes that can start in each state, with what can follow -/
def closTab : List (List (Nat × Nat)) := [
  [(64, 2), (69, 647675602237263136), (70, 71214849933839648), (148, 71214849933839648)],
  [],
  [(71, 647675602237263136), (72, 71214849933839648), (73, 140737488363520), (74, 8192), (75, 647675602237263136), (76, 71214849933839648), (77, 647675705316478240), (78, 71214953013054752), (79, 647675602237263136), (80, 71214849933839648), (82, 647675602237263136), (84, 5188146770730811392), (86, 5189121370329702320), (87, 5189121370329700272), (99, 5188146770764399104), (111, 5189121370329702320), (112, 5189121370329702320), (113, 5189121370329702320), (114, 5189121370329700272), (120, 5188146770764399104), (121, 5188146787944268288), (122, 5188147062822175232), (123, 5188710012775596544), (124, 5188710012842705408), (125, 5188998225012572672), (126, 5188998225014669824), (127, 5188998225023058432), (128, 5188998225027252736), (129, 5189103778143519232), (130, 5189103778143520512), (131, 5189121370329569168), (132, 5189121370329569168), (133, 5188146770764399104), (134, 5188146770764399104), (135, 5188146770764399104), (136, 5188146770764399104), (137, 5188146770764399104), (138, 5188146770764399104), (139, 5188146770764399104), (140, 5188146770764399104), (141, 5188146770764399104), (142, 5188146770764399104), (143, 5188146770764399104), (144, 5188146770764399104), (147, 5189121370329700272), (149, 103079215104)],
  [],
  [],
  [],
  [],
  [],
  [],
  [(83, 5188146770730811392)],
  [],
  [(86, 137439087136), (87, 137439085088), (110, 137438953984), (111, 137439087136), (112, 137439087136), (113, 137439087136), (114, 137439085088), (147, 137439085088)],
  [],
  [],
  [(86, 5189121370296115120), (87, 5189121370296113072), (99, 5188146770730811904), (111, 5189121370296115120), (112, 5189121370296115120), (113, 5189121370296115120), (114, 5189121370296113072), (120, 5188146770730811904), (121, 5188146787910681088), (122, 5188147062788588032), (123, 5188710012742009344), (124, 5188710012809118208), (125, 5188998224978985472), (126, 5188998224981082624), (127, 5188998224989471232), (128, 5188998224993665536), (129, 5189103778109932032), (130, 5189103778109933312), (131, 5189121370295981968), (132, 5189121370295981968), (133, 5188146770730811904), (134, 5188146770730811904), (135, 5188146770730811904), (136, 5188146770730811904), (137, 5188146770730811904), (138, 5188146770730811904), (139, 5188146770730811904), (140, 5188146770730811904), (141, 5188146770730811904), (142, 5188146770730811904), (143, 5188146770730811904), (144, 5188146770730811904), (147, 5189121370296113072)],
  [],
  [],
  [],
  [],
  [(81, 1409037053332768)],
  [],
  [],
  [(86, 974599565311920), (87, 974599565309872), (99, 8704), (111, 974599565311920), (112, 974599565311920), (113, 974599565311920), (114, 974599565309872), (120, 8704), (121, 17179877888), (122, 292057784832), (123, 563242011206144), (124, 563242078315008), (125, 851454248182272), (126, 851454250279424), (127, 851454258668032), (128, 851454262862336), (129, 957007379128832), (130, 957007379130112), (131, 974599565178768), (132, 974599565178768), (133, 8704), (134, 8704), (135, 8704), (136, 8704), (137, 8704), (138, 8704), (139, 8704), (140, 8704), (141, 8704), (142, 8704), (143, 8704), (144, 8704), (147, 974599565309872)],
  [],
  [(93, 8192), (95, 8704), (97, 8704), (112, 41472)],
  [(86, 5189121405764501488), (87, 5189121405764499440), (111, 5189121405764501488), (112, 5189121405764501488), (113, 5189121405764501488), (114, 5189121405764499440), (132, 5189121405764368336), (144, 5188146806199198272), (147, 5189121405764499440)],
  [(86, 5189121405764501488), (87, 5189121405764499440), (111, 5189121405764501488), (112, 5189121405764501488), (113, 5189121405764501488), (114, 5189121405764499440), (132, 5189121405764368336), (144, 5188146806199198272), (147, 5189121405764499440)],
  [(86, 5189121405764501488), (87, 5189121405764499440), (111, 5189121405764501488), (112, 5189121405764501488), (113, 5189121405764501488), (114, 5189121405764499440), (132, 5189121405764368336), (144, 5188146806199198272), (147, 5189121405764499440)],
  [(86, 5189121405764501488), (87, 5189121405764499440), (111, 5189121405764501488), (112, 5189121405764501488), (113, 5189121405764501488), (114, 5189121405764499440), (132, 5189121405764368336), (144, 5188146806199198272), (147, 5189121405764499440)],
  [],
  [],
  [],
  [],
  [(86, 974600639307696), (87, 974600639305648), (101, 262656), (103, 262144), (111, 974600639307696), (112, 974600639307696), (113, 974600639307696), (114, 974600639305648), (120, 1074004480), (121, 18253873664), (122, 293131780608), (123, 563243085201920), (124, 563243152310784), (125, 851455322178048), (126, 851455324275200), (127, 851455332663808), (128, 851455336858112), (129, 957008453124608), (130, 957008453125888), (131, 974600639174544), (132, 974600639174544), (133, 1074004480), (134, 1074004480), (135, 1074004480), (136, 1074004480), (137, 1074004480), (138, 1074004480), (139, 1074004480), (140, 1074004480), (141, 1074004480), (142, 1074004480), (143, 1074004480), (144, 1074004480), (147, 974600639305648)],
  [(86, 974599566360496), (87, 974599566358448), (101, 1049088), (107, 1074790912), (108, 1049088), (109, 1048576), (111, 974599566360496), (112, 974599566360496), (113, 974599566360496), (114, 974599566358448), (120, 1057280), (121, 17180926464), (122, 292058833408), (123, 563242012254720), (124, 563242079363584), (125, 851454249230848), (126, 851454251328000), (127, 851454259716608), (128, 851454263910912), (129, 957007380177408), (130, 957007380178688), (131, 974599566227344), (132, 974599566227344), (133, 1057280), (134, 1057280), (135, 1057280), (136, 1057280), (137, 1057280), (138, 1057280), (139, 1057280), (140, 1057280), (141, 1057280), (142, 1057280), (143, 1057280), (144, 1057280), (147, 974599566358448)],
  [(86, 974599565303792), (87, 974599565301744), (101, 576), (103, 64), (111, 974599565303792), (112, 974599565303792), (113, 974599565303792), (114, 974599565301744), (120, 576), (121, 17179869760), (122, 292057776704), (123, 563242011198016), (124, 563242078306880), (125, 851454248174144), (126, 851454250271296), (127, 851454258659904), (128, 851454262854208), (129, 957007379120704), (130, 957007379121984), (131, 974599565170640), (132, 974599565170640), (133, 576), (134, 576), (135, 576), (136, 576), (137, 576), (138, 576), (139, 576), (140, 576), (141, 576), (142, 576), (143, 576), (144, 576), (147, 974599565301744)],
  [],
  [],
  [],
  [],
  [],
  [(85, 576460752303423488)],
  [(65, 791790790313119008), (66, 215330038009695520), (82, 791790790313119008), (84, 5188146770730811392), (86, 5189121370329702320), (87, 5189121370329700272), (99, 5188146770764399104), (111, 5189121370329702320), (112, 5189121370329702320), (113, 5189121370329702320), (114, 5189121370329700272), (120, 5188146770764399104), (121, 5188146787944268288), (122, 5188147062822175232), (123, 5188710012775596544), (124, 5188710012842705408), (125, 5188998225012572672), (126, 5188998225014669824), (127, 5188998225023058432), (128, 5188998225027252736), (129, 5189103778143519232), (130, 5189103778143520512), (131, 5189121370329569168), (132, 5189121370329569168), (133, 5188146770764399104), (134, 5188146770764399104), (135, 5188146770764399104), (136, 5188146770764399104), (137, 5188146770764399104), (138, 5188146770764399104), (139, 5188146770764399104), (140, 5188146770764399104), (141, 5188146770764399104), (142, 5188146770764399104), (143, 5188146770764399104), (144, 5188146770764399104), (147, 5189121370329700272)],
  [],
  [],
  [(86, 5189121370296115120), (87, 5189121370296113072), (99, 5188146770730811904), (111, 5189121370296115120), (112, 5189121370296115120), (113, 5189121370296115120), (114, 5189121370296113072), (120, 5188146770730811904), (121, 5188146787910681088), (122, 5188147062788588032), (123, 5188710012742009344), (124, 5188710012809118208), (125, 5188998224978985472), (126, 5188998224981082624), (127, 5188998224989471232), (128, 5188998224993665536), (129, 5189103778109932032), (130, 5189103778109933312), (131, 5189121370295981968), (132, 5189121370295981968), (133, 5188146770730811904), (134, 5188146770730811904), (135, 5188146770730811904), (136, 5188146770730811904), (137, 5188146770730811904), (138, 5188146770730811904), (139, 5188146770730811904), (140, 5188146770730811904), (141, 5188146770730811904), (142, 5188146770730811904), (143, 5188146770730811904), (144, 5188146770730811904), (147, 5189121370296113072)],
  [(86, 5189121370296115120), (87, 5189121370296113072), (99, 5188146770730811904), (111, 5189121370296115120), (112, 5189121370296115120), (113, 5189121370296115120), (114, 5189121370296113072), (120, 5188146770730811904), (121, 5188146787910681088), (122, 5188147062788588032), (123, 5188710012742009344), (124, 5188710012809118208), (125, 5188998224978985472), (126, 5188998224981082624), (127, 5188998224989471232), (128, 5188998224993665536), (129, 5189103778109932032), (130, 5189103778109933312), (131, 5189121370295981968), (132, 5189121370295981968), (133, 5188146770730811904), (134, 5188146770730811904), (135, 5188146770730811904), (136, 5188146770730811904), (137, 5188146770730811904), (138, 5188146770730811904), (139, 5188146770730811904), (140, 5188146770730811904), (141, 5188146770730811904), (142, 5188146770730811904), (143, 5188146770730811904), (144, 5188146770730811904), (147, 5189121370296113072)],
  [(86, 5189121353150103472), (87, 5189121353150101424), (111, 5189121353150103472), (112, 5189121353150103472), (113, 5189121353150103472), (114, 5189121353150101424), (122, 5188147045642576384), (123, 5188709995595997696), (124, 5188709995663106560), (125, 5188998207832973824), (126, 5188998207835070976), (127, 5188998207843459584), (128, 5188998207847653888), (129, 5189103760963920384), (130, 5189103760963921664), (131, 5189121353149970320), (132, 5189121353149970320), (134, 5188146770764669440), (135, 5188146770764669440), (136, 5188146770764669440), (137, 5188146770764669440), (138, 5188146770764669440), (139, 5188146770764669440), (140, 5188146770764669440), (141, 5188146770764669440), (142, 5188146770764669440), (143, 5188146770764669440), (144, 5188146770764669440), (146, 5188146770764669440), (147, 5189121353150101424)],
  [],
  [(86, 974599565311408), (87, 974599565309360), (111, 974599565311408), (112, 974599565311408), (113, 974599565311408), (114, 974599565309360), (120, 8192), (121, 17179877376), (122, 292057784320), (123, 563242011205632), (124, 563242078314496), (125, 851454248181760), (126, 851454250278912), (127, 851454258667520), (128, 851454262861824), (129, 957007379128320), (130, 957007379129600), (131, 974599565178256), (132, 974599565178256), (133, 8192), (134, 8192), (135, 8192), (136, 8192), (137, 8192), (138, 8192), (139, 8192), (140, 8192), (141, 8192), (142, 8192), (143, 8192), (144, 8192), (147, 974599565309360)],
  [(86, 974599565311920), (87, 974599565309872), (99, 8704), (111, 974599565311920), (112, 974599565311920), (113, 974599565311920), (114, 974599565309872), (120, 8704), (121, 17179877888), (122, 292057784832), (123, 563242011206144), (124, 563242078315008), (125, 851454248182272), (126, 851454250279424), (127, 851454258668032), (128, 851454262862336), (129, 957007379128832), (130, 957007379130112), (131, 974599565178768), (132, 974599565178768), (133, 8704), (134, 8704), (135, 8704), (136, 8704), (137, 8704), (138, 8704), (139, 8704), (140, 8704), (141, 8704), (142, 8704), (143, 8704), (144, 8704), (147, 974599565309872)],
  [],
  [],
  [(86, 5189121405764501488), (87, 5189121405764499440), (111, 5189121405764501488), (112, 5189121405764501488), (113, 5189121405764501488), (114, 5189121405764499440), (132, 5189121405764368336), (144, 5188146806199198272), (147, 5189121405764499440)],
  [(86, 5189121405764501488), (87, 5189121405764499440), (111, 5189121405764501488), (112, 5189121405764501488), (113, 5189121405764501488), (114, 5189121405764499440), (132, 5189121405764368336), (144, 5188146806199198272), (147, 5189121405764499440)],
  [(86, 5189121405764501488), (87, 5189121405764499440), (111, 5189121405764501488), (112, 5189121405764501488), (113, 5189121405764501488), (114, 5189121405764499440), (132, 5189121405764368336), (144, 5188146806199198272), (147, 5189121405764499440)],
  [(86, 5189121405764501488), (87, 5189121405764499440), (111, 5189121405764501488), (112, 5189121405764501488), (113, 5189121405764501488), (114, 5189121405764499440), (132, 5189121405764368336), (144, 5188146806199198272), (147, 5189121405764499440)],
  [(86, 5189121405764501488), (87, 5189121405764499440), (111, 5189121405764501488), (112, 5189121405764501488), (113, 5189121405764501488), (114, 5189121405764499440), (131, 5189121405764368336), (132, 5189121405764368336), (143, 5188146806199198272), (144, 5188146806199198272), (147, 5189121405764499440)],
  [(86, 5189121405764501488), (87, 5189121405764499440), (111, 5189121405764501488), (112, 5189121405764501488), (113, 5189121405764501488), (114, 5189121405764499440), (131, 5189121405764368336), (132, 5189121405764368336), (143, 5188146806199198272), (144, 5188146806199198272), (147, 5189121405764499440)],
  [(86, 5189121405764501488), (87, 5189121405764499440), (111, 5189121405764501488), (112, 5189121405764501488), (113, 5189121405764501488), (114, 5189121405764499440), (126, 5188998260449468992), (127, 5188998260457857600), (128, 5188998260462051904), (129, 5189103813578318400), (130, 5189103813578319680), (131, 5189121405764368336), (132, 5189121405764368336), (138, 5188146806199198272), (139, 5188146806199198272), (140, 5188146806199198272), (141, 5188146806199198272), (142, 5188146806199198272), (143, 5188146806199198272), (144, 5188146806199198272), (147, 5189121405764499440)],
  [(86, 5189121405764501488), (87, 5189121405764499440), (111, 5189121405764501488), (112, 5189121405764501488), (113, 5189121405764501488), (114, 5189121405764499440), (126, 5188998260449468992), (127, 5188998260457857600), (128, 5188998260462051904), (129, 5189103813578318400), (130, 5189103813578319680), (131, 5189121405764368336), (132, 5189121405764368336), (138, 5188146806199198272), (139, 5188146806199198272), (140, 5188146806199198272), (141, 5188146806199198272), (142, 5188146806199198272), (143, 5188146806199198272), (144, 5188146806199198272), (147, 5189121405764499440)],
  [(86, 5189121405764501488), (87, 5189121405764499440), (111, 5189121405764501488), (112, 5189121405764501488), (113, 5189121405764501488), (114, 5189121405764499440), (126, 5188998260449468992), (127, 5188998260457857600), (128, 5188998260462051904), (129, 5189103813578318400), (130, 5189103813578319680), (131, 5189121405764368336), (132, 5189121405764368336), (138, 5188146806199198272), (139, 5188146806199198272), (140, 5188146806199198272), (141, 5188146806199198272), (142, 5188146806199198272), (143, 5188146806199198272), (144, 5188146806199198272), (147, 5189121405764499440)],
  [(86, 5189121405764501488), (87, 5189121405764499440), (111, 5189121405764501488), (112, 5189121405764501488), (113, 5189121405764501488), (114, 5189121405764499440), (126, 5188998260449468992), (127, 5188998260457857600), (128, 5188998260462051904), (129, 5189103813578318400), (130, 5189103813578319680), (131, 5189121405764368336), (132, 5189121405764368336), (138, 5188146806199198272), (139, 5188146806199198272), (140, 5188146806199198272), (141, 5188146806199198272), (142, 5188146806199198272), (143, 5188146806199198272), (144, 5188146806199198272), (147, 5189121405764499440)],
  [(86, 5189121405764501488), (87, 5189121405764499440), (111, 5189121405764501488), (112, 5189121405764501488), (113, 5189121405764501488), (114, 5189121405764499440), (126, 5188998260449468992), (127, 5188998260457857600), (128, 5188998260462051904), (129, 5189103813578318400), (130, 5189103813578319680), (131, 5189121405764368336), (132, 5189121405764368336), (138, 5188146806199198272), (139, 5188146806199198272), (140, 5188146806199198272), (141, 5188146806199198272), (142, 5188146806199198272), (143, 5188146806199198272), (144, 5188146806199198272), (147, 5189121405764499440)],
  [(86, 5189121405764501488), (87, 5189121405764499440), (111, 5189121405764501488), (112, 5189121405764501488), (113, 5189121405764501488), (114, 5189121405764499440), (126, 5188998260449468992), (127, 5188998260457857600), (128, 5188998260462051904), (129, 5189103813578318400), (130, 5189103813578319680), (131, 5189121405764368336), (132, 5189121405764368336), (138, 5188146806199198272), (139, 5188146806199198272), (140, 5188146806199198272), (141, 5188146806199198272), (142, 5188146806199198272), (143, 5188146806199198272), (144, 5188146806199198272), (147, 5189121405764499440)],
  [(86, 5189121405764501488), (87, 5189121405764499440), (111, 5189121405764501488), (112, 5189121405764501488), (113, 5189121405764501488), (114, 5189121405764499440), (126, 5188998260449468992), (127, 5188998260457857600), (128, 5188998260462051904), (129, 5189103813578318400), (130, 5189103813578319680), (131, 5189121405764368336), (132, 5189121405764368336), (138, 5188146806199198272), (139, 5188146806199198272), (140, 5188146806199198272), (141, 5188146806199198272), (142, 5188146806199198272), (143, 5188146806199198272), (144, 5188146806199198272), (147, 5189121405764499440)],
  [],
  [(86, 5189121405764501488), (87, 5189121405764499440), (111, 5189121405764501488), (112, 5189121405764501488), (113, 5189121405764501488), (114, 5189121405764499440), (124, 5188710048277504576), (125, 5188998260447371840), (126, 5188998260449468992), (127, 5188998260457857600), (128, 5188998260462051904), (129, 5189103813578318400), (130, 5189103813578319680), (131, 5189121405764368336), (132, 5189121405764368336), (136, 5188146806199198272), (137, 5188146806199198272), (138, 5188146806199198272), (139, 5188146806199198272), (140, 5188146806199198272), (141, 5188146806199198272), (142, 5188146806199198272), (143, 5188146806199198272), (144, 5188146806199198272), (147, 5189121405764499440)],
  [(86, 5189121405764501488), (87, 5189121405764499440), (111, 5189121405764501488), (112, 5189121405764501488), (113, 5189121405764501488), (114, 5189121405764499440), (125, 5188998260447371840), (126, 5188998260449468992), (127, 5188998260457857600), (128, 5188998260462051904), (129, 5189103813578318400), (130, 5189103813578319680), (131, 5189121405764368336), (132, 5189121405764368336), (137, 5188146806199198272), (138, 5188146806199198272), (139, 5188146806199198272), (140, 5188146806199198272), (141, 5188146806199198272), (142, 5188146806199198272), (143, 5188146806199198272), (144, 5188146806199198272), (147, 5189121405764499440)],
  [(86, 5189121405764501488), (87, 5189121405764499440), (111, 5189121405764501488), (112, 5189121405764501488), (113, 5189121405764501488), (114, 5189121405764499440), (127, 5188998260457857600), (128, 5188998260462051904), (129, 5189103813578318400), (130, 5189103813578319680), (131, 5189121405764368336), (132, 5189121405764368336), (139, 5188146806199198272), (140, 5188146806199198272), (141, 5188146806199198272), (142, 5188146806199198272), (143, 5188146806199198272), (144, 5188146806199198272), (147, 5189121405764499440)],
  [(86, 5189121405764501488), (87, 5189121405764499440), (111, 5189121405764501488), (112, 5189121405764501488), (113, 5189121405764501488), (114, 5189121405764499440), (129, 5189103813578318400), (130, 5189103813578319680), (131, 5189121405764368336), (132, 5189121405764368336), (141, 5188146806199198272), (142, 5188146806199198272), (143, 5188146806199198272), (144, 5188146806199198272), (147, 5189121405764499440)],
  [(86, 5189121405764501488), (87, 5189121405764499440), (111, 5189121405764501488), (112, 5189121405764501488), (113, 5189121405764501488), (114, 5189121405764499440), (128, 5188998260462051904), (129, 5189103813578318400), (130, 5189103813578319680), (131, 5189121405764368336), (132, 5189121405764368336), (140, 5188146806199198272), (141, 5188146806199198272), (142, 5188146806199198272), (143, 5188146806199198272), (144, 5188146806199198272), (147, 5189121405764499440)],
  [(86, 5189121405764501488), (87, 5189121405764499440), (111, 5189121405764501488), (112, 5189121405764501488), (113, 5189121405764501488), (114, 5189121405764499440), (130, 5189103813578319680), (131, 5189121405764368336), (132, 5189121405764368336), (142, 5188146806199198272), (143, 5188146806199198272), (144, 5188146806199198272), (147, 5189121405764499440)],
  [(86, 5189121405764501488), (87, 5189121405764499440), (111, 5189121405764501488), (112, 5189121405764501488), (113, 5189121405764501488), (114, 5189121405764499440), (130, 5189103813578319680), (131, 5189121405764368336), (132, 5189121405764368336), (142, 5188146806199198272), (143, 5188146806199198272), (144, 5188146806199198272), (147, 5189121405764499440)],
  [(86, 5189121405764501488), (87, 5189121405764499440), (111, 5189121405764501488), (112, 5189121405764501488), (113, 5189121405764501488), (114, 5189121405764499440), (123, 5188710048210395712), (124, 5188710048277504576), (125, 5188998260447371840), (126, 5188998260449468992), (127, 5188998260457857600), (128, 5188998260462051904), (129, 5189103813578318400), (130, 5189103813578319680), (131, 5189121405764368336), (132, 5189121405764368336), (135, 5188146806199198272), (136, 5188146806199198272), (137, 5188146806199198272), (138, 5188146806199198272), (139, 5188146806199198272), (140, 5188146806199198272), (141, 5188146806199198272), (142, 5188146806199198272), (143, 5188146806199198272), (144, 5188146806199198272), (147, 5189121405764499440)],
  [(86, 974633925041584), (87, 974633925039536), (111, 974633925041584), (112, 974633925041584), (113, 974633925041584), (114, 974633925039536), (120, 34359738368), (121, 51539607552), (122, 326417514496), (123, 563276370935808), (124, 563276438044672), (125, 851488607911936), (126, 851488610009088), (127, 851488618397696), (128, 851488622592000), (129, 957041738858496), (130, 957041738859776), (131, 974633924908432), (132, 974633924908432), (133, 34359738368), (134, 34359738368), (135, 34359738368), (136, 34359738368), (137, 34359738368), (138, 34359738368), (139, 34359738368), (140, 34359738368), (141, 34359738368), (142, 34359738368), (143, 34359738368), (144, 34359738368), (147, 974633925039536)],
  [],
  [],
  [],
  [(88, 64), (89, 576), (105, 1417833146355616), (106, 1417833146355104)],
  [(86, 974599565574064), (87, 974599565572016), (99, 270848), (100, 8192), (111, 974599565574064), (112, 974599565574064), (113, 974599565574064), (114, 974599565572016), (120, 270848), (121, 17180140032), (122, 292058046976), (123, 563242011468288), (124, 563242078577152), (125, 851454248444416), (126, 851454250541568), (127, 851454258930176), (128, 851454263124480), (129, 957007379390976), (130, 957007379392256), (131, 974599565440912), (132, 974599565440912), (133, 270848), (134, 270848), (135, 270848), (136, 270848), (137, 270848), (138, 270848), (139, 270848), (140, 270848), (141, 270848), (142, 270848), (143, 270848), (144, 270848), (147, 974599565572016)],
  [],
  [(104, 8192)],
  [],
  [],
  [(112, 8704)],
  [(112, 8704)],
  [],
  [],
  [],
  [],
  [(105, 1125899906843136), (106, 1125899906842624)],
  [],
  [(115, 18253873152), (116, 1074003968), (117, 18253873152), (118, 1074003968), (119, 1074003968)],
  [(105, 1409037053595488), (106, 262208)],
  [(115, 18254659584), (116, 1074790400), (117, 18254659584), (118, 1074790400), (119, 1074790400)],
  [],
  [(104, 1048576), (105, 1409037053333280)],
  [],
  [(105, 1409037054381856)],
  [],
  [],
  [],
  [],
  [],
  [(84, 5188146770730811392), (86, 5189121370329702320), (87, 5189121370329700272), (99, 5188146770764399104), (111, 5189121370329702320), (112, 5189121370329702320), (113, 5189121370329702320), (114, 5189121370329700272), (120, 5188146770764399104), (121, 5188146787944268288), (122, 5188147062822175232), (123, 5188710012775596544), (124, 5188710012842705408), (125, 5188998225012572672), (126, 5188998225014669824), (127, 5188998225023058432), (128, 5188998225027252736), (129, 5189103778143519232), (130, 5189103778143520512), (131, 5189121370329569168), (132, 5189121370329569168), (133, 5188146770764399104), (134, 5188146770764399104), (135, 5188146770764399104), (136, 5188146770764399104), (137, 5188146770764399104), (138, 5188146770764399104), (139, 5188146770764399104), (140, 5188146770764399104), (141, 5188146770764399104), (142, 5188146770764399104), (143, 5188146770764399104), (144, 5188146770764399104), (147, 5189121370329700272)],
  [],
  [(68, 648518346475569152)],
  [(67, 791790893392334112)],
  [(86, 974599565311920), (87, 974599565309872), (99, 8704), (111, 974599565311920), (112, 974599565311920), (113, 974599565311920), (114, 974599565309872), (120, 8704), (121, 17179877888), (122, 292057784832), (123, 563242011206144), (124, 563242078315008), (125, 851454248182272), (126, 851454250279424), (127, 851454258668032), (128, 851454262862336), (129, 957007379128832), (130, 957007379130112), (131, 974599565178768), (132, 974599565178768), (133, 8704), (134, 8704), (135, 8704), (136, 8704), (137, 8704), (138, 8704), (139, 8704), (140, 8704), (141, 8704), (142, 8704), (143, 8704), (144, 8704), (147, 974599565309872)],
  [(86, 137439087136), (87, 137439085088), (111, 137439087136), (112, 137439087136), (113, 137439087136), (114, 137439085088), (147, 137439085088)],
  [],
  [],
  [],
  [],
  [],
  [(65, 791790790313119008), (66, 215330038009695520), (82, 791790790313119008), (84, 5188146770730811392), (86, 5189121370329702320), (87, 5189121370329700272), (99, 5188146770764399104), (111, 5189121370329702320), (112, 5189121370329702320), (113, 5189121370329702320), (114, 5189121370329700272), (120, 5188146770764399104), (121, 5188146787944268288), (122, 5188147062822175232), (123, 5188710012775596544), (124, 5188710012842705408), (125, 5188998225012572672), (126, 5188998225014669824), (127, 5188998225023058432), (128, 5188998225027252736), (129, 5189103778143519232), (130, 5189103778143520512), (131, 5189121370329569168), (132, 5189121370329569168), (133, 5188146770764399104), (134, 5188146770764399104), (135, 5188146770764399104), (136, 5188146770764399104), (137, 5188146770764399104), (138, 5188146770764399104), (139, 5188146770764399104), (140, 5188146770764399104), (141, 5188146770764399104), (142, 5188146770764399104), (143, 5188146770764399104), (144, 5188146770764399104), (147, 5189121370329700272)],
  [],
  [],
  [],
  [],
  [],
  [],
  [],
  [],
  [],
  [],
  [],
  [],
  [],
  [],
  [(86, 5189121405764501488), (87, 5189121405764499440), (111, 5189121405764501488), (112, 5189121405764501488), (113, 5189121405764501488), (114, 5189121405764499440), (126, 5188998260449468992), (127, 5188998260457857600), (128, 5188998260462051904), (129, 5189103813578318400), (130, 5189103813578319680), (131, 5189121405764368336), (132, 5189121405764368336), (138, 5188146806199198272), (139, 5188146806199198272), (140, 5188146806199198272), (141, 5188146806199198272), (142, 5188146806199198272), (143, 5188146806199198272), (144, 5188146806199198272), (147, 5189121405764499440)],
  [],
  [],
  [],
  [],
  [],
  [],
  [],
  [],
  [],
  [(94, 64), (96, 576), (97, 576), (98, 576), (112, 41536)],
  [(65, 791790893392334112), (66, 215330141088910624), (82, 791790893392334112), (84, 5188146770730811392), (86, 5189121370329702320), (87, 5189121370329700272), (99, 5188146770764399104), (111, 5189121370329702320), (112, 5189121370329702320), (113, 5189121370329702320), (114, 5189121370329700272), (120, 5188146770764399104), (121, 5188146787944268288), (122, 5188147062822175232), (123, 5188710012775596544), (124, 5188710012842705408), (125, 5188998225012572672), (126, 5188998225014669824), (127, 5188998225023058432), (128, 5188998225027252736), (129, 5189103778143519232), (130, 5189103778143520512), (131, 5189121370329569168), (132, 5189121370329569168), (133, 5188146770764399104), (134, 5188146770764399104), (135, 5188146770764399104), (136, 5188146770764399104), (137, 5188146770764399104), (138, 5188146770764399104), (139, 5188146770764399104), (140, 5188146770764399104), (141, 5188146770764399104), (142, 5188146770764399104), (143, 5188146770764399104), (144, 5188146770764399104), (147, 5189121370329700272)],
  [],
  [],
  [(105, 1417833146355680), (106, 64)],
  [(86, 974599565303792), (87, 974599565301744), (90, 576), (111, 974599565303792), (112, 974599565336560), (113, 974599565303792), (114, 974599565301744), (120, 576), (121, 17179869760), (122, 292057776704), (123, 563242011198016), (124, 563242078306880), (125, 851454248174144), (126, 851454250271296), (127, 851454258659904), (128, 851454262854208), (129, 957007379120704), (130, 957007379121984), (131, 974599565170640), (132, 974599565170640), (133, 576), (134, 576), (135, 576), (136, 576), (137, 576), (138, 576), (139, 576), (140, 576), (141, 576), (142, 576), (143, 576), (144, 576), (147, 974599565301744)],
  [],
  [],
  [],
  [],
  [(86, 5189121405764501488), (87, 5189121405764499440), (111, 5189121405764501488), (112, 5189121405764501488), (113, 5189121405764501488), (114, 5189121405764499440), (120, 5188146806199198272), (121, 5188146823379067456), (122, 5188147098256974400), (123, 5188710048210395712), (124, 5188710048277504576), (125, 5188998260447371840), (126, 5188998260449468992), (127, 5188998260457857600), (128, 5188998260462051904), (129, 5189103813578318400), (130, 5189103813578319680), (131, 5189121405764368336), (132, 5189121405764368336), (133, 5188146806199198272), (134, 5188146806199198272), (135, 5188146806199198272), (136, 5188146806199198272), (137, 5188146806199198272), (138, 5188146806199198272), (139, 5188146806199198272), (140, 5188146806199198272), (141, 5188146806199198272), (142, 5188146806199198272), (143, 5188146806199198272), (144, 5188146806199198272), (145, 5188146806199198272), (147, 5189121405764499440)],
  [],
  [(97, 8704), (112, 41472)],
  [(86, 974599565311984), (87, 974599565309936), (111, 974599565311984), (112, 974599565311984), (113, 974599565311984), (114, 974599565309936), (120, 8768), (121, 17179877952), (122, 292057784896), (123, 563242011206208), (124, 563242078315072), (125, 851454248182336), (126, 851454250279488), (127, 851454258668096), (128, 851454262862400), (129, 957007379128896), (130, 957007379130176), (131, 974599565178832), (132, 974599565178832), (133, 8768), (134, 8768), (135, 8768), (136, 8768), (137, 8768), (138, 8768), (139, 8768), (140, 8768), (141, 8768), (142, 8768), (143, 8768), (144, 8768), (147, 974599565309936)],
  [],
  [],
  [(111, 512)],
  [],
  [(115, 18253873152), (116, 1074003968), (117, 18253873152), (118, 1074003968)],
  [],
  [],
  [(86, 137439087136), (87, 137439085088), (110, 137438953984), (111, 137439087136), (112, 137439087136), (113, 137439087136), (114, 137439085088), (147, 137439085088)],
  [(86, 974599565565936), (87, 974599565563888), (111, 974599565565936), (112, 974599565565936), (113, 974599565565936), (114, 974599565563888), (120, 262720), (121, 17180131904), (122, 292058038848), (123, 563242011460160), (124, 563242078569024), (125, 851454248436288), (126, 851454250533440), (127, 851454258922048), (128, 851454263116352), (129, 957007379382848), (130, 957007379384128), (131, 974599565432784), (132, 974599565432784), (133, 262720), (134, 262720), (135, 262720), (136, 262720), (137, 262720), (138, 262720), (139, 262720), (140, 262720), (141, 262720), (142, 262720), (143, 262720), (144, 262720), (147, 974599565563888)],
  [],
  [(115, 18254659584), (116, 1074790400), (117, 18254659584), (118, 1074790400)],
  [],
  [],
  [(86, 974599566352304), (87, 974599566350256), (111, 974599566352304), (112, 974599566352304), (113, 974599566352304), (114, 974599566350256), (120, 1049088), (121, 17180918272), (122, 292058825216), (123, 563242012246528), (124, 563242079355392), (125, 851454249222656), (126, 851454251319808), (127, 851454259708416), (128, 851454263902720), (129, 957007380169216), (130, 957007380170496), (131, 974599566219152), (132, 974599566219152), (133, 1049088), (134, 1049088), (135, 1049088), (136, 1049088), (137, 1049088), (138, 1049088), (139, 1049088), (140, 1049088), (141, 1049088), (142, 1049088), (143, 1049088), (144, 1049088), (147, 974599566350256)],
  [],
  [(86, 974600640094128), (87, 974600640092080), (111, 974600640094128), (112, 974600640094128), (113, 974600640094128), (114, 974600640092080), (120, 1074790912), (121, 18254660096), (122, 293132567040), (123, 563243085988352), (124, 563243153097216), (125, 851455322964480), (126, 851455325061632), (127, 851455333450240), (128, 851455337644544), (129, 957008453911040), (130, 957008453912320), (131, 974600639960976), (132, 974600639960976), (133, 1074790912), (134, 1074790912), (135, 1074790912), (136, 1074790912), (137, 1074790912), (138, 1074790912), (139, 1074790912), (140, 1074790912), (141, 1074790912), (142, 1074790912), (143, 1074790912), (144, 1074790912), (147, 974600640092080)],
  [(86, 974599565311408), (87, 974599565309360), (107, 1049088), (111, 974599565311408), (112, 974599565311408), (113, 974599565311408), (114, 974599565309360), (120, 8192), (121, 17179877376), (122, 292057784320), (123, 563242011205632), (124, 563242078314496), (125, 851454248181760), (126, 851454250278912), (127, 851454258667520), (128, 851454262861824), (129, 957007379128320), (130, 957007379129600), (131, 974599565178256), (132, 974599565178256), (133, 8192), (134, 8192), (135, 8192), (136, 8192), (137, 8192), (138, 8192), (139, 8192), (140, 8192), (141, 8192), (142, 8192), (143, 8192), (144, 8192), (147, 974599565309360)],
  [],
  [],
  [],
  [],
  [],
  [],
  [],
  [],
  [(65, 791790893392334112), (66, 215330141088910624), (82, 791790893392334112), (84, 5188146770730811392), (86, 5189121370329702320), (87, 5189121370329700272), (99, 5188146770764399104), (111, 5189121370329702320), (112, 5189121370329702320), (113, 5189121370329702320), (114, 5189121370329700272), (120, 5188146770764399104), (121, 5188146787944268288), (122, 5188147062822175232), (123, 5188710012775596544), (124, 5188710012842705408), (125, 5188998225012572672), (126, 5188998225014669824), (127, 5188998225023058432), (128, 5188998225027252736), (129, 5189103778143519232), (130, 5189103778143520512), (131, 5189121370329569168), (132, 5189121370329569168), (133, 5188146770764399104), (134, 5188146770764399104), (135, 5188146770764399104), (136, 5188146770764399104), (137, 5188146770764399104), (138, 5188146770764399104), (139, 5188146770764399104), (140, 5188146770764399104), (141, 5188146770764399104), (142, 5188146770764399104), (143, 5188146770764399104), (144, 5188146770764399104), (147, 5189121370329700272)],
  [],
  [],
  [(86, 5189121405764501488), (87, 5189121405764499440), (111, 5189121405764501488), (112, 5189121405764501488), (113, 5189121405764501488), (114, 5189121405764499440), (122, 5188147098256974400), (123, 5188710048210395712), (124, 5188710048277504576), (125, 5188998260447371840), (126, 5188998260449468992), (127, 5188998260457857600), (128, 5188998260462051904), (129, 5189103813578318400), (130, 5189103813578319680), (131, 5189121405764368336), (132, 5189121405764368336), (134, 5188146806199198272), (135, 5188146806199198272), (136, 5188146806199198272), (137, 5188146806199198272), (138, 5188146806199198272), (139, 5188146806199198272), (140, 5188146806199198272), (141, 5188146806199198272), (142, 5188146806199198272), (143, 5188146806199198272), (144, 5188146806199198272), (147, 5189121405764499440)],
  [],
  [(104, 64)],
  [],
  [],
  [],
  [(112, 8768)],
  [(112, 8768)],
  [],
  [],
  [],
  [(86, 974599565303792), (87, 974599565301744), (90, 576), (111, 974599565303792), (112, 974599565336560), (113, 974599565303792), (114, 974599565301744), (120, 576), (121, 17179869760), (122, 292057776704), (123, 563242011198016), (124, 563242078306880), (125, 851454248174144), (126, 851454250271296), (127, 851454258659904), (128, 851454262854208), (129, 957007379120704), (130, 957007379121984), (131, 974599565170640), (132, 974599565170640), (133, 576), (134, 576), (135, 576), (136, 576), (137, 576), (138, 576), (139, 576), (140, 576), (141, 576), (142, 576), (143, 576), (144, 576), (147, 974599565301744)],
  [],
  [],
  [],
  [(86, 974599565303792), (87, 974599565301744), (111, 974599565303792), (112, 974599565303792), (113, 974599565303792), (114, 974599565301744), (120, 576), (121, 17179869760), (122, 292057776704), (123, 563242011198016), (124, 563242078306880), (125, 851454248174144), (126, 851454250271296), (127, 851454258659904), (128, 851454262854208), (129, 957007379120704), (130, 957007379121984), (131, 974599565170640), (132, 974599565170640), (133, 576), (134, 576), (135, 576), (136, 576), (137, 576), (138, 576), (139, 576), (140, 576), (141, 576), (142, 576), (143, 576), (144, 576), (147, 974599565301744)],
  [(86, 974599565303792), (87, 974599565301744), (111, 974599565303792), (112, 974599565303792), (113, 974599565303792), (114, 974599565301744), (120, 576), (121, 17179869760), (122, 292057776704), (123, 563242011198016), (124, 563242078306880), (125, 851454248174144), (126, 851454250271296), (127, 851454258659904), (128, 851454262854208), (129, 957007379120704), (130, 957007379121984), (131, 974599565170640), (132, 974599565170640), (133, 576), (134, 576), (135, 576), (136, 576), (137, 576), (138, 576), (139, 576), (140, 576), (141, 576), (142, 576), (143, 576), (144, 576), (147, 974599565301744)],
  [],
  [],
  [(86, 974599565573552), (87, 974599565571504), (102, 270336), (111, 974599565573552), (112, 974599565573552), (113, 974599565573552), (114, 974599565571504), (120, 270336), (121, 17180139520), (122, 292058046464), (123, 563242011467776), (124, 563242078576640), (125, 851454248443904), (126, 851454250541056), (127, 851454258929664), (128, 851454263123968), (129, 957007379390464), (130, 957007379391744), (131, 974599565440400), (132, 974599565440400), (133, 270336), (134, 270336), (135, 270336), (136, 270336), (137, 270336), (138, 270336), (139, 270336), (140, 270336), (141, 270336), (142, 270336), (143, 270336), (144, 270336), (147, 974599565571504)],
  [],
  [],
  [],
  [(105, 1125904201810432)],
  [],
  [],
  [(86, 974600640355760), (87, 974600640353712), (111, 974600640355760), (112, 974600640355760), (113, 974600640355760), (114, 974600640353712), (122, 293132828672), (123, 563243086249984), (124, 563243153358848), (125, 851455323226112), (126, 851455325323264), (127, 851455333711872), (128, 851455337906176), (129, 957008454172672), (130, 957008454173952), (131, 974600640222608), (132, 974600640222608), (134, 1075052544), (135, 1075052544), (136, 1075052544), (137, 1075052544), (138, 1075052544), (139, 1075052544), (140, 1075052544), (141, 1075052544), (142, 1075052544), (143, 1075052544), (144, 1075052544), (147, 974600640353712)],
  [],
  [],
  [],
  [],
  [],
  [],
  [],
  [(69, 791790790044683552), (70, 215330037741260064), (148, 215330037741260064)],
  [],
  [],
  [],
  [(65, 791790790313119008), (66, 215330038009695520), (82, 791790790313119008), (84, 5188146770730811392), (86, 5189121370329702320), (87, 5189121370329700272), (99, 5188146770764399104), (111, 5189121370329702320), (112, 5189121370329702320), (113, 5189121370329702320), (114, 5189121370329700272), (120, 5188146770764399104), (121, 5188146787944268288), (122, 5188147062822175232), (123, 5188710012775596544), (124, 5188710012842705408), (125, 5188998225012572672), (126, 5188998225014669824), (127, 5188998225023058432), (128, 5188998225027252736), (129, 5189103778143519232), (130, 5189103778143520512), (131, 5189121370329569168), (132, 5189121370329569168), (133, 5188146770764399104), (134, 5188146770764399104), (135, 5188146770764399104), (136, 5188146770764399104), (137, 5188146770764399104), (138, 5188146770764399104), (139, 5188146770764399104), (140, 5188146770764399104), (141, 5188146770764399104), (142, 5188146770764399104), (143, 5188146770764399104), (144, 5188146770764399104), (147, 5189121370329700272)],
  [],
  [],
  [],
  [],
  [(97, 576), (98, 576), (112, 41536)],
  [(86, 974599565336560), (87, 974599565334512), (111, 974599565336560), (112, 974599565336560), (113, 974599565336560), (114, 974599565334512), (120, 33344), (121, 17179902528), (122, 292057809472), (123, 563242011230784), (124, 563242078339648), (125, 851454248206912), (126, 851454250304064), (127, 851454258692672), (128, 851454262886976), (129, 957007379153472), (130, 957007379154752), (131, 974599565203408), (132, 974599565203408), (133, 33344), (134, 33344), (135, 33344), (136, 33344), (137, 33344), (138, 33344), (139, 33344), (140, 33344), (141, 33344), (142, 33344), (143, 33344), (144, 33344), (147, 974599565334512)],
  [],
  [],
  [],
  [(86, 974599565303792), (87, 974599565301744), (111, 974599565303792), (112, 974599565303792), (113, 974599565303792), (114, 974599565301744), (120, 576), (121, 17179869760), (122, 292057776704), (123, 563242011198016), (124, 563242078306880), (125, 851454248174144), (126, 851454250271296), (127, 851454258659904), (128, 851454262854208), (129, 957007379120704), (130, 957007379121984), (131, 974599565170640), (132, 974599565170640), (133, 576), (134, 576), (135, 576), (136, 576), (137, 576), (138, 576), (139, 576), (140, 576), (141, 576), (142, 576), (143, 576), (144, 576), (147, 974599565301744)],
  [],
  [],
  [],
  [],
  [(91, 576), (92, 576), (111, 576), (112, 32768)],
  [],
  [(86, 974600640355760), (87, 974600640353712), (111, 974600640355760), (112, 974600640355760), (113, 974600640355760), (114, 974600640353712), (122, 293132828672), (123, 563243086249984), (124, 563243153358848), (125, 851455323226112), (126, 851455325323264), (127, 851455333711872), (128, 851455337906176), (129, 957008454172672), (130, 957008454173952), (131, 974600640222608), (132, 974600640222608), (134, 1075052544), (135, 1075052544), (136, 1075052544), (137, 1075052544), (138, 1075052544), (139, 1075052544), (140, 1075052544), (141, 1075052544), (142, 1075052544), (143, 1075052544), (144, 1075052544), (147, 974600640353712)],
  [(71, 791790790044683552), (72, 215330037741260064), (73, 140737488363520), (74, 8192), (75, 791790790044683552), (76, 215330037741260064), (77, 791790893123898656), (78, 215330140820475168), (79, 791790790044683552), (80, 215330037741260064), (82, 791790790044683552), (84, 5188146770730811392), (86, 5189121370329702320), (87, 5189121370329700272), (99, 5188146770764399104), (111, 5189121370329702320), (112, 5189121370329702320), (113, 5189121370329702320), (114, 5189121370329700272), (120, 5188146770764399104), (121, 5188146787944268288), (122, 5188147062822175232), (123, 5188710012775596544), (124, 5188710012842705408), (125, 5188998225012572672), (126, 5188998225014669824), (127, 5188998225023058432), (128, 5188998225027252736), (129, 5189103778143519232), (130, 5189103778143520512), (131, 5189121370329569168), (132, 5189121370329569168), (133, 5188146770764399104), (134, 5188146770764399104), (135, 5188146770764399104), (136, 5188146770764399104), (137, 5188146770764399104), (138, 5188146770764399104), (139, 5188146770764399104), (140, 5188146770764399104), (141, 5188146770764399104), (142, 5188146770764399104), (143, 5188146770764399104), (144, 5188146770764399104), (147, 5189121370329700272), (149, 103079215104)],
  [],
  [],
  [],
  [],
  [(86, 974599565303792), (87, 974599565301744), (111, 974599565303792), (112, 974599565303792), (113, 974599565303792), (114, 974599565301744), (120, 576), (121, 17179869760), (122, 292057776704), (123, 563242011198016), (124, 563242078306880), (125, 851454248174144), (126, 851454250271296), (127, 851454258659904), (128, 851454262854208), (129, 957007379120704), (130, 957007379121984), (131, 974599565170640), (132, 974599565170640), (133, 576), (134, 576), (135, 576), (136, 576), (137, 576), (138, 576), (139, 576), (140, 576), (141, 576), (142, 576), (143, 576), (144, 576), (147, 974599565301744)],
  [(86, 974599565303792), (87, 974599565301744), (111, 974599565303792), (112, 974599565303792), (113, 974599565303792), (114, 974599565301744), (120, 576), (121, 17179869760), (122, 292057776704), (123, 563242011198016), (124, 563242078306880), (125, 851454248174144), (126, 851454250271296), (127, 851454258659904), (128, 851454262854208), (129, 957007379120704), (130, 957007379121984), (131, 974599565170640), (132, 974599565170640), (133, 576), (134, 576), (135, 576), (136, 576), (137, 576), (138, 576), (139, 576), (140, 576), (141, 576), (142, 576), (143, 576), (144, 576), (147, 974599565301744)],
  [],
  [],
  [(86, 974599565565360), (87, 974599565563312), (102, 262144), (111, 974599565565360), (112, 974599565565360), (113, 974599565565360), (114, 974599565563312), (120, 262144), (121, 17180131328), (122, 292058038272), (123, 563242011459584), (124, 563242078568448), (125, 851454248435712), (126, 851454250532864), (127, 851454258921472), (128, 851454263115776), (129, 957007379382272), (130, 957007379383552), (131, 974599565432208), (132, 974599565432208), (133, 262144), (134, 262144), (135, 262144), (136, 262144), (137, 262144), (138, 262144), (139, 262144), (140, 262144), (141, 262144), (142, 262144), (143, 262144), (144, 262144), (147, 974599565563312)],
  [(105, 576), (106, 64)],
  [],
  [],
  [],
  [],
  [],
  [(86, 974599565303792), (87, 974599565301744), (111, 974599565303792), (112, 974599565303792), (113, 974599565303792), (114, 974599565301744), (120, 576), (121, 17179869760), (122, 292057776704), (123, 563242011198016), (124, 563242078306880), (125, 851454248174144), (126, 851454250271296), (127, 851454258659904), (128, 851454262854208), (129, 957007379120704), (130, 957007379121984), (131, 974599565170640), (132, 974599565170640), (133, 576), (134, 576), (135, 576), (136, 576), (137, 576), (138, 576), (139, 576), (140, 576), (141, 576), (142, 576), (143, 576), (144, 576), (147, 974599565301744)],
  [],
  [],
  [],
  [],
  [(92, 576), (111, 576), (112, 32768)],
  [(111, 576)],
  [],
  [],
  [],
  [],
  []]

/-- items of each state that are under way: 16 * production + dot, what can follow -/
def kernTab : List (List (Nat × Nat)) := [
  [],
  [],
  [(1, 2), (145, 647675602237263136), (161, 71214849933839648), (177, 647675602237263136), (193, 647675602237263136)],
  [(2, 2)],
  [(146, 791790790313119008), (162, 215330038009695520)],
  [(178, 791790790313119008)],
  [(194, 791790790313119008)],
  [(209, 791790790313119008)],
  [(225, 791790790313119008), (241, 215330038009695520)],
  [(561, 791790893392334112)],
  [(305, 791790790313119008), (321, 215330038009695520)],
  [(337, 791790790313119008), (353, 215330038009695520)],
  [(369, 791790790313119008), (385, 215330038009695520)],
  [(609, 5188146770730811392), (657, 5188146770730811392), (673, 5188146770730811392), (1521, 5188146770764399104)],
  [(625, 5188146770730811392), (641, 5188146770730811392)],
  [(689, 5188146770730811392)],
  [(705, 5188146770730811392)],
  [(721, 5188146770730811392)],
  [(273, 8192), (289, 8192)],
  [(433, 791790893392334112), (449, 215330141088910624), (465, 791790790313119008), (481, 215330038009695520), (497, 791790790313119008), (513, 215330038009695520)],
  [(1505, 5188146770764669440), (2177, 5188146823379067456), (2209, 5188147098256974400), (2241, 5188710048210395712), (2273, 5188710048277504576), (2305, 5188998260447371840), (2321, 5188998260447371840), (2337, 5188998260447371840), (2353, 5188998260447371840), (2369, 5188998260447371840), (2385, 5188998260447371840), (2401, 5188998260447371840), (2417, 5188998260447371840), (2449, 5188998260449468992), (2481, 5188998260457857600), (2513, 5188998260462051904), (2545, 5189103813578318400), (2561, 5189103813578318400), (2593, 5189103813578319680), (2609, 5189103813578319680), (2641, 5189121405764368336), (2657, 5189121405764368336), (2673, 5189121405764368336), (2689, 5189121405764368336), (2785, 5188146806199198272), (2817, 5188146806199198272), (2849, 5188146806199198272), (2881, 5188146806199198272), (2913, 5188146806199198272), (2929, 5188146806199198272), (2945, 5188146806199198272), (2961, 5188146806199198272), (2977, 5188146806199198272), (2993, 5188146806199198272), (3009, 5188146806199198272), (3025, 5188146806199198272), (3057, 5188146806199198272), (3089, 5188146806199198272), (3121, 5188146806199198272), (3153, 5188146806199198272), (3169, 5188146806199198272), (3201, 5188146806199198272), (3217, 5188146806199198272), (3249, 5188146806199198272), (3265, 5188146806199198272), (3281, 5188146806199198272), (3297, 5188146806199198272), (3425, 5188146806199198272)],
  [(257, 140737488363520)],
  [(401, 791790893392334112), (417, 215330141088910624)],
  [(833, 5189121405764501488), (865, 5189121405764501488), (881, 5189121405764501488), (897, 5189121405764501488), (913, 5189121405764501488), (3393, 5189121405764368336)],
  [(3409, 5188146806199198272)],
  [(2721, 5189121405764368336), (3329, 5188146806199198272)],
  [(2737, 5189121405764368336), (3345, 5188146806199198272)],
  [(2753, 5189121405764368336), (3361, 5188146806199198272)],
  [(2769, 5189121405764368336), (3377, 5188146806199198272)],
  [(769, 5189121405764501488)],
  [(785, 5189121405764501488), (801, 5189121405764499440)],
  [(817, 5189121405764501488)],
  [(849, 5189121405764501488)],
  [(929, 5189121405764501488), (945, 5189121405764501488)],
  [(961, 5189121405764501488), (977, 5189121405764501488), (993, 5189121405764501488)],
  [(1009, 5189121405764501488)],
  [(1905, 5189121405764501488)],
  [(1921, 5189121405764501488), (1937, 5189121405764501488), (1969, 5189121405764499440)],
  [(1953, 5189121405764501488)],
  [(1889, 5189121405764501488)],
  [(195, 791790790313119008)],
  [(562, 791790893392334112), (593, 5188146770730811392)],
  [(306, 791790790313119008), (322, 215330038009695520)],
  [(338, 791790790313119008), (354, 215330038009695520), (1873, 137438953984)],
  [(833, 137439087136), (865, 137439087136), (881, 137439087136), (897, 137439087136), (913, 137439087136), (1857, 137438953984)],
  [(658, 5188146770730811392)],
  [(674, 5188146770730811392)],
  [(1522, 5188146770764669440)],
  [(626, 5188146770730811392), (1521, 5188146770730811904)],
  [(290, 8192)],
  [(434, 791790893392334112), (450, 215330141088910624)],
  [(498, 791790790313119008), (514, 215330038009695520), (529, 1409037053332768)],
  [(545, 1409037053332768)],
  [(2642, 5189121405764368336), (3250, 5188146806199198272)],
  [(2658, 5189121405764368336), (3266, 5188146806199198272)],
  [(2674, 5189121405764368336), (3282, 5188146806199198272)],
  [(2690, 5189121405764368336), (3298, 5188146806199198272)],
  [(2594, 5189103813578319680), (3202, 5188146806199198272)],
  [(2610, 5189103813578319680), (3218, 5188146806199198272)],
  [(2306, 5188998260447371840), (2914, 5188146806199198272)],
  [(2322, 5188998260447371840), (2930, 5188146806199198272)],
  [(2338, 5188998260447371840), (2946, 5188146806199198272)],
  [(2354, 5188998260447371840), (2962, 5188146806199198272)],
  [(2370, 5188998260447371840), (2978, 5188146806199198272)],
  [(2386, 5188998260447371840), (2994, 5188146806199198272)],
  [(2402, 5188998260447371840), (3010, 5188146806199198272)],
  [(2418, 5188998260447371840), (3026, 5188146806199198272)],
  [(2242, 5188710048210395712), (2850, 5188146806199198272)],
  [(2274, 5188710048277504576), (2882, 5188146806199198272)],
  [(2450, 5188998260449468992), (3058, 5188146806199198272)],
  [(2514, 5188998260462051904), (3122, 5188146806199198272)],
  [(2482, 5188998260457857600), (3090, 5188146806199198272)],
  [(2546, 5189103813578318400), (3154, 5188146806199198272)],
  [(2562, 5189103813578318400), (3170, 5188146806199198272)],
  [(2210, 5188147098256974400), (2818, 5188146806199198272)],
  [(2178, 5188146823379067456), (2786, 5188146806199198272)],
  [(258, 140737488363520)],
  [(402, 791790893392334112), (418, 215330141088910624), (1521, 8704)],
  [(834, 5189121405764501488)],
  [(866, 5189121405764501488)],
  [(882, 5189121405764501488), (898, 5189121405764501488), (914, 5189121405764501488)],
  [(3410, 5188146806199198272)],
  [(1233, 8192), (1297, 8704)],
  [(1281, 8704)],
  [(1345, 8704), (1361, 8704)],
  [(1377, 8704), (1393, 8704)],
  [(1409, 8704)],
  [(2722, 5189121405764368336), (3330, 5188146806199198272)],
  [(2738, 5189121405764368336), (3346, 5188146806199198272)],
  [(2754, 5189121405764368336), (3362, 5188146806199198272)],
  [(2770, 5189121405764368336), (3378, 5188146806199198272)],
  [(850, 5189121405764501488)],
  [(930, 5189121405764501488)],
  [(946, 5189121405764501488), (1569, 262656), (2177, 18253873664), (2209, 293131780608), (2241, 563243085201920), (2273, 563243152310784), (2305, 851455322178048), (2321, 851455322178048), (2337, 851455322178048), (2353, 851455322178048), (2369, 851455322178048), (2385, 851455322178048), (2401, 851455322178048), (2417, 851455322178048), (2449, 851455324275200), (2481, 851455332663808), (2513, 851455336858112), (2545, 957008453124608), (2561, 957008453124608), (2593, 957008453125888), (2609, 957008453125888), (2641, 974600639174544), (2657, 974600639174544), (2673, 974600639174544), (2689, 974600639174544), (2785, 1074004480), (2817, 1074004480), (2849, 1074004480), (2881, 1074004480), (2913, 1074004480), (2929, 1074004480), (2945, 1074004480), (2961, 1074004480), (2977, 1074004480), (2993, 1074004480), (3009, 1074004480), (3025, 1074004480), (3057, 1074004480), (3089, 1074004480), (3121, 1074004480), (3153, 1074004480), (3169, 1074004480), (3201, 1074004480), (3217, 1074004480), (3249, 1074004480), (3265, 1074004480), (3281, 1074004480), (3297, 1074004480)],
  [(1585, 262720), (1649, 262208)],
  [(962, 5189121405764501488), (1777, 1049088)],
  [(978, 5189121405764501488)],
  [(994, 5189121405764501488), (1585, 1049088)],
  [(1569, 1049088), (1761, 1074790912), (2177, 17180926464), (2209, 292058833408), (2241, 563242012254720), (2273, 563242079363584), (2305, 851454249230848), (2321, 851454249230848), (2337, 851454249230848), (2353, 851454249230848), (2369, 851454249230848), (2385, 851454249230848), (2401, 851454249230848), (2417, 851454249230848), (2449, 851454251328000), (2481, 851454259716608), (2513, 851454263910912), (2545, 957007380177408), (2561, 957007380177408), (2593, 957007380178688), (2609, 957007380178688), (2641, 974599566227344), (2657, 974599566227344), (2673, 974599566227344), (2689, 974599566227344), (2785, 1057280), (2817, 1057280), (2849, 1057280), (2881, 1057280), (2913, 1057280), (2929, 1057280), (2945, 1057280), (2961, 1057280), (2977, 1057280), (2993, 1057280), (3009, 1057280), (3025, 1057280), (3057, 1057280), (3089, 1057280), (3121, 1057280), (3153, 1057280), (3169, 1057280), (3201, 1057280), (3217, 1057280), (3249, 1057280), (3265, 1057280), (3281, 1057280), (3297, 1057280)],
  [(1793, 1049088), (1825, 1048576), (1841, 1048576)],
  [(1010, 5189121405764501488)],
  [(1569, 576), (2177, 17179869760), (2209, 292057776704), (2241, 563242011198016), (2273, 563242078306880), (2305, 851454248174144), (2321, 851454248174144), (2337, 851454248174144), (2353, 851454248174144), (2369, 851454248174144), (2385, 851454248174144), (2401, 851454248174144), (2417, 851454248174144), (2449, 851454250271296), (2481, 851454258659904), (2513, 851454262854208), (2545, 957007379120704), (2561, 957007379120704), (2593, 957007379121984), (2609, 957007379121984), (2641, 974599565170640), (2657, 974599565170640), (2673, 974599565170640), (2689, 974599565170640), (2785, 576), (2817, 576), (2849, 576), (2881, 576), (2913, 576), (2929, 576), (2945, 576), (2961, 576), (2977, 576), (2993, 576), (3009, 576), (3025, 576), (3057, 576), (3089, 576), (3121, 576), (3153, 576), (3169, 576), (3201, 576), (3217, 576), (3249, 576), (3265, 576), (3281, 576), (3297, 576)],
  [(1922, 5189121405764501488), (1938, 5189121405764501488)],
  [(1954, 5189121405764501488)],
  [(563, 791790893392334112)],
  [(594, 5188146770730811392), (753, 576460752303423488)],
  [(307, 791790790313119008), (323, 215330038009695520)],
  [(17, 791790893392334112)],
  [(33, 215330141088910624)],
  [(339, 791790790313119008), (355, 215330038009695520)],
  [(1874, 137438953984)],
  [(659, 5188146770730811392), (1521, 5188146770730811904)],
  [(675, 5188146770730811392), (1521, 5188146770730811904)],
  [(1523, 5188146770764669440), (2209, 5188147045642576384), (2241, 5188709995595997696), (2273, 5188709995663106560), (2305, 5188998207832973824), (2321, 5188998207832973824), (2337, 5188998207832973824), (2353, 5188998207832973824), (2369, 5188998207832973824), (2385, 5188998207832973824), (2401, 5188998207832973824), (2417, 5188998207832973824), (2449, 5188998207835070976), (2481, 5188998207843459584), (2513, 5188998207847653888), (2545, 5189103760963920384), (2561, 5189103760963920384), (2593, 5189103760963921664), (2609, 5189103760963921664), (2641, 5189121353149970320), (2657, 5189121353149970320), (2673, 5189121353149970320), (2689, 5189121353149970320), (2817, 5188146770764669440), (2849, 5188146770764669440), (2881, 5188146770764669440), (2913, 5188146770764669440), (2929, 5188146770764669440), (2945, 5188146770764669440), (2961, 5188146770764669440), (2977, 5188146770764669440), (2993, 5188146770764669440), (3009, 5188146770764669440), (3025, 5188146770764669440), (3057, 5188146770764669440), (3089, 5188146770764669440), (3121, 5188146770764669440), (3153, 5188146770764669440), (3169, 5188146770764669440), (3201, 5188146770764669440), (3217, 5188146770764669440), (3249, 5188146770764669440), (3265, 5188146770764669440), (3281, 5188146770764669440), (3297, 5188146770764669440)],
  [(291, 8192), (2177, 17179877376), (2209, 292057784320), (2241, 563242011205632), (2273, 563242078314496), (2305, 851454248181760), (2321, 851454248181760), (2337, 851454248181760), (2353, 851454248181760), (2369, 851454248181760), (2385, 851454248181760), (2401, 851454248181760), (2417, 851454248181760), (2449, 851454250278912), (2481, 851454258667520), (2513, 851454262861824), (2545, 957007379128320), (2561, 957007379128320), (2593, 957007379129600), (2609, 957007379129600), (2641, 974599565178256), (2657, 974599565178256), (2673, 974599565178256), (2689, 974599565178256), (2785, 8192), (2817, 8192), (2849, 8192), (2881, 8192), (2913, 8192), (2929, 8192), (2945, 8192), (2961, 8192), (2977, 8192), (2993, 8192), (3009, 8192), (3025, 8192), (3057, 8192), (3089, 8192), (3121, 8192), (3153, 8192), (3169, 8192), (3201, 8192), (3217, 8192), (3249, 8192), (3265, 8192), (3281, 8192), (3297, 8192)],
  [(435, 791790893392334112), (451, 215330141088910624), (1521, 8704)],
  [(499, 791790790313119008), (515, 215330038009695520)],
  [(530, 1409037053332768)],
  [(2643, 5189121405764368336), (3251, 5188146806199198272)],
  [(2659, 5189121405764368336), (3267, 5188146806199198272)],
  [(2675, 5189121405764368336), (3283, 5188146806199198272)],
  [(2691, 5189121405764368336), (3299, 5188146806199198272)],
  [(2595, 5189103813578319680), (2641, 5189121405764368336), (2657, 5189121405764368336), (2673, 5189121405764368336), (2689, 5189121405764368336), (3203, 5188146806199198272), (3249, 5188146806199198272), (3265, 5188146806199198272), (3281, 5188146806199198272), (3297, 5188146806199198272)],
  [(2611, 5189103813578319680), (2641, 5189121405764368336), (2657, 5189121405764368336), (2673, 5189121405764368336), (2689, 5189121405764368336), (3219, 5188146806199198272), (3249, 5188146806199198272), (3265, 5188146806199198272), (3281, 5188146806199198272), (3297, 5188146806199198272)],
  [(2307, 5188998260447371840), (2449, 5188998260449468992), (2481, 5188998260457857600), (2513, 5188998260462051904), (2545, 5189103813578318400), (2561, 5189103813578318400), (2593, 5189103813578319680), (2609, 5189103813578319680), (2641, 5189121405764368336), (2657, 5189121405764368336), (2673, 5189121405764368336), (2689, 5189121405764368336), (2915, 5188146806199198272), (3057, 5188146806199198272), (3089, 5188146806199198272), (3121, 5188146806199198272), (3153, 5188146806199198272), (3169, 5188146806199198272), (3201, 5188146806199198272), (3217, 5188146806199198272), (3249, 5188146806199198272), (3265, 5188146806199198272), (3281, 5188146806199198272), (3297, 5188146806199198272)],
  [(2323, 5188998260447371840), (2449, 5188998260449468992), (2481, 5188998260457857600), (2513, 5188998260462051904), (2545, 5189103813578318400), (2561, 5189103813578318400), (2593, 5189103813578319680), (2609, 5189103813578319680), (2641, 5189121405764368336), (2657, 5189121405764368336), (2673, 5189121405764368336), (2689, 5189121405764368336), (2931, 5188146806199198272), (3057, 5188146806199198272), (3089, 5188146806199198272), (3121, 5188146806199198272), (3153, 5188146806199198272), (3169, 5188146806199198272), (3201, 5188146806199198272), (3217, 5188146806199198272), (3249, 5188146806199198272), (3265, 5188146806199198272), (3281, 5188146806199198272), (3297, 5188146806199198272)],
  [(2339, 5188998260447371840), (2449, 5188998260449468992), (2481, 5188998260457857600), (2513, 5188998260462051904), (2545, 5189103813578318400), (2561, 5189103813578318400), (2593, 5189103813578319680), (2609, 5189103813578319680), (2641, 5189121405764368336), (2657, 5189121405764368336), (2673, 5189121405764368336), (2689, 5189121405764368336), (2947, 5188146806199198272), (3057, 5188146806199198272), (3089, 5188146806199198272), (3121, 5188146806199198272), (3153, 5188146806199198272), (3169, 5188146806199198272), (3201, 5188146806199198272), (3217, 5188146806199198272), (3249, 5188146806199198272), (3265, 5188146806199198272), (3281, 5188146806199198272), (3297, 5188146806199198272)],
  [(2355, 5188998260447371840), (2449, 5188998260449468992), (2481, 5188998260457857600), (2513, 5188998260462051904), (2545, 5189103813578318400), (2561, 5189103813578318400), (2593, 5189103813578319680), (2609, 5189103813578319680), (2641, 5189121405764368336), (2657, 5189121405764368336), (2673, 5189121405764368336), (2689, 5189121405764368336), (2963, 5188146806199198272), (3057, 5188146806199198272), (3089, 5188146806199198272), (3121, 5188146806199198272), (3153, 5188146806199198272), (3169, 5188146806199198272), (3201, 5188146806199198272), (3217, 5188146806199198272), (3249, 5188146806199198272), (3265, 5188146806199198272), (3281, 5188146806199198272), (3297, 5188146806199198272)],
  [(2371, 5188998260447371840), (2449, 5188998260449468992), (2481, 5188998260457857600), (2513, 5188998260462051904), (2545, 5189103813578318400), (2561, 5189103813578318400), (2593, 5189103813578319680), (2609, 5189103813578319680), (2641, 5189121405764368336), (2657, 5189121405764368336), (2673, 5189121405764368336), (2689, 5189121405764368336), (2979, 5188146806199198272), (3057, 5188146806199198272), (3089, 5188146806199198272), (3121, 5188146806199198272), (3153, 5188146806199198272), (3169, 5188146806199198272), (3201, 5188146806199198272), (3217, 5188146806199198272), (3249, 5188146806199198272), (3265, 5188146806199198272), (3281, 5188146806199198272), (3297, 5188146806199198272)],
  [(2387, 5188998260447371840), (2449, 5188998260449468992), (2481, 5188998260457857600), (2513, 5188998260462051904), (2545, 5189103813578318400), (2561, 5189103813578318400), (2593, 5189103813578319680), (2609, 5189103813578319680), (2641, 5189121405764368336), (2657, 5189121405764368336), (2673, 5189121405764368336), (2689, 5189121405764368336), (2995, 5188146806199198272), (3057, 5188146806199198272), (3089, 5188146806199198272), (3121, 5188146806199198272), (3153, 5188146806199198272), (3169, 5188146806199198272), (3201, 5188146806199198272), (3217, 5188146806199198272), (3249, 5188146806199198272), (3265, 5188146806199198272), (3281, 5188146806199198272), (3297, 5188146806199198272)],
  [(2403, 5188998260447371840), (2449, 5188998260449468992), (2481, 5188998260457857600), (2513, 5188998260462051904), (2545, 5189103813578318400), (2561, 5189103813578318400), (2593, 5189103813578319680), (2609, 5189103813578319680), (2641, 5189121405764368336), (2657, 5189121405764368336), (2673, 5189121405764368336), (2689, 5189121405764368336), (3011, 5188146806199198272), (3057, 5188146806199198272), (3089, 5188146806199198272), (3121, 5188146806199198272), (3153, 5188146806199198272), (3169, 5188146806199198272), (3201, 5188146806199198272), (3217, 5188146806199198272), (3249, 5188146806199198272), (3265, 5188146806199198272), (3281, 5188146806199198272), (3297, 5188146806199198272)],
  [(2419, 5188998260447371840), (3027, 5188146806199198272)],
  [(2243, 5188710048210395712), (2273, 5188710048277504576), (2305, 5188998260447371840), (2321, 5188998260447371840), (2337, 5188998260447371840), (2353, 5188998260447371840), (2369, 5188998260447371840), (2385, 5188998260447371840), (2401, 5188998260447371840), (2417, 5188998260447371840), (2449, 5188998260449468992), (2481, 5188998260457857600), (2513, 5188998260462051904), (2545, 5189103813578318400), (2561, 5189103813578318400), (2593, 5189103813578319680), (2609, 5189103813578319680), (2641, 5189121405764368336), (2657, 5189121405764368336), (2673, 5189121405764368336), (2689, 5189121405764368336), (2851, 5188146806199198272), (2881, 5188146806199198272), (2913, 5188146806199198272), (2929, 5188146806199198272), (2945, 5188146806199198272), (2961, 5188146806199198272), (2977, 5188146806199198272), (2993, 5188146806199198272), (3009, 5188146806199198272), (3025, 5188146806199198272), (3057, 5188146806199198272), (3089, 5188146806199198272), (3121, 5188146806199198272), (3153, 5188146806199198272), (3169, 5188146806199198272), (3201, 5188146806199198272), (3217, 5188146806199198272), (3249, 5188146806199198272), (3265, 5188146806199198272), (3281, 5188146806199198272), (3297, 5188146806199198272)],
  [(2275, 5188710048277504576), (2305, 5188998260447371840), (2321, 5188998260447371840), (2337, 5188998260447371840), (2353, 5188998260447371840), (2369, 5188998260447371840), (2385, 5188998260447371840), (2401, 5188998260447371840), (2417, 5188998260447371840), (2449, 5188998260449468992), (2481, 5188998260457857600), (2513, 5188998260462051904), (2545, 5189103813578318400), (2561, 5189103813578318400), (2593, 5189103813578319680), (2609, 5189103813578319680), (2641, 5189121405764368336), (2657, 5189121405764368336), (2673, 5189121405764368336), (2689, 5189121405764368336), (2883, 5188146806199198272), (2913, 5188146806199198272), (2929, 5188146806199198272), (2945, 5188146806199198272), (2961, 5188146806199198272), (2977, 5188146806199198272), (2993, 5188146806199198272), (3009, 5188146806199198272), (3025, 5188146806199198272), (3057, 5188146806199198272), (3089, 5188146806199198272), (3121, 5188146806199198272), (3153, 5188146806199198272), (3169, 5188146806199198272), (3201, 5188146806199198272), (3217, 5188146806199198272), (3249, 5188146806199198272), (3265, 5188146806199198272), (3281, 5188146806199198272), (3297, 5188146806199198272)],
  [(2451, 5188998260449468992), (2481, 5188998260457857600), (2513, 5188998260462051904), (2545, 5189103813578318400), (2561, 5189103813578318400), (2593, 5189103813578319680), (2609, 5189103813578319680), (2641, 5189121405764368336), (2657, 5189121405764368336), (2673, 5189121405764368336), (2689, 5189121405764368336), (3059, 5188146806199198272), (3089, 5188146806199198272), (3121, 5188146806199198272), (3153, 5188146806199198272), (3169, 5188146806199198272), (3201, 5188146806199198272), (3217, 5188146806199198272), (3249, 5188146806199198272), (3265, 5188146806199198272), (3281, 5188146806199198272), (3297, 5188146806199198272)],
  [(2515, 5188998260462051904), (2545, 5189103813578318400), (2561, 5189103813578318400), (2593, 5189103813578319680), (2609, 5189103813578319680), (2641, 5189121405764368336), (2657, 5189121405764368336), (2673, 5189121405764368336), (2689, 5189121405764368336), (3123, 5188146806199198272), (3153, 5188146806199198272), (3169, 5188146806199198272), (3201, 5188146806199198272), (3217, 5188146806199198272), (3249, 5188146806199198272), (3265, 5188146806199198272), (3281, 5188146806199198272), (3297, 5188146806199198272)],
  [(2483, 5188998260457857600), (2513, 5188998260462051904), (2545, 5189103813578318400), (2561, 5189103813578318400), (2593, 5189103813578319680), (2609, 5189103813578319680), (2641, 5189121405764368336), (2657, 5189121405764368336), (2673, 5189121405764368336), (2689, 5189121405764368336), (3091, 5188146806199198272), (3121, 5188146806199198272), (3153, 5188146806199198272), (3169, 5188146806199198272), (3201, 5188146806199198272), (3217, 5188146806199198272), (3249, 5188146806199198272), (3265, 5188146806199198272), (3281, 5188146806199198272), (3297, 5188146806199198272)],
  [(2547, 5189103813578318400), (2593, 5189103813578319680), (2609, 5189103813578319680), (2641, 5189121405764368336), (2657, 5189121405764368336), (2673, 5189121405764368336), (2689, 5189121405764368336), (3155, 5188146806199198272), (3201, 5188146806199198272), (3217, 5188146806199198272), (3249, 5188146806199198272), (3265, 5188146806199198272), (3281, 5188146806199198272), (3297, 5188146806199198272)],
  [(2563, 5189103813578318400), (2593, 5189103813578319680), (2609, 5189103813578319680), (2641, 5189121405764368336), (2657, 5189121405764368336), (2673, 5189121405764368336), (2689, 5189121405764368336), (3171, 5188146806199198272), (3201, 5188146806199198272), (3217, 5188146806199198272), (3249, 5188146806199198272), (3265, 5188146806199198272), (3281, 5188146806199198272), (3297, 5188146806199198272)],
  [(2211, 5188147098256974400), (2241, 5188710048210395712), (2273, 5188710048277504576), (2305, 5188998260447371840), (2321, 5188998260447371840), (2337, 5188998260447371840), (2353, 5188998260447371840), (2369, 5188998260447371840), (2385, 5188998260447371840), (2401, 5188998260447371840), (2417, 5188998260447371840), (2449, 5188998260449468992), (2481, 5188998260457857600), (2513, 5188998260462051904), (2545, 5189103813578318400), (2561, 5189103813578318400), (2593, 5189103813578319680), (2609, 5189103813578319680), (2641, 5189121405764368336), (2657, 5189121405764368336), (2673, 5189121405764368336), (2689, 5189121405764368336), (2819, 5188146806199198272), (2849, 5188146806199198272), (2881, 5188146806199198272), (2913, 5188146806199198272), (2929, 5188146806199198272), (2945, 5188146806199198272), (2961, 5188146806199198272), (2977, 5188146806199198272), (2993, 5188146806199198272), (3009, 5188146806199198272), (3025, 5188146806199198272), (3057, 5188146806199198272), (3089, 5188146806199198272), (3121, 5188146806199198272), (3153, 5188146806199198272), (3169, 5188146806199198272), (3201, 5188146806199198272), (3217, 5188146806199198272), (3249, 5188146806199198272), (3265, 5188146806199198272), (3281, 5188146806199198272), (3297, 5188146806199198272)],
  [(2177, 51539607552), (2179, 5188146823379067456), (2209, 326417514496), (2241, 563276370935808), (2273, 563276438044672), (2305, 851488607911936), (2321, 851488607911936), (2337, 851488607911936), (2353, 851488607911936), (2369, 851488607911936), (2385, 851488607911936), (2401, 851488607911936), (2417, 851488607911936), (2449, 851488610009088), (2481, 851488618397696), (2513, 851488622592000), (2545, 957041738858496), (2561, 957041738858496), (2593, 957041738859776), (2609, 957041738859776), (2641, 974633924908432), (2657, 974633924908432), (2673, 974633924908432), (2689, 974633924908432), (2785, 34359738368), (2787, 5188146806199198272), (2817, 34359738368), (2849, 34359738368), (2881, 34359738368), (2913, 34359738368), (2929, 34359738368), (2945, 34359738368), (2961, 34359738368), (2977, 34359738368), (2993, 34359738368), (3009, 34359738368), (3025, 34359738368), (3057, 34359738368), (3089, 34359738368), (3121, 34359738368), (3153, 34359738368), (3169, 34359738368), (3201, 34359738368), (3217, 34359738368), (3249, 34359738368), (3265, 34359738368), (3281, 34359738368), (3297, 34359738368)],
  [(259, 140737488363520)],
  [(403, 791790893392334112), (419, 215330141088910624)],
  [(835, 5189121405764501488)],
  [(867, 5189121405764501488)],
  [(1041, 64), (1073, 576)],
  [(1057, 576)],
  [(1713, 1417833146355680), (1745, 1417833146355168)],
  [(1697, 1417833147666400)],
  [(883, 5189121405764501488), (1521, 270848), (1553, 8192)],
  [(899, 5189121405764501488), (915, 5189121405764501488)],
  [(3411, 5188146806199198272)],
  [(1234, 8192)],
  [(1298, 8704), (1681, 8192)],
  [(1362, 8768)],
  [(1378, 8704)],
  [(1410, 8704)],
  [(851, 5189121405764501488)],
  [(931, 5189121405764501488)],
  [(947, 5189121405764501488), (2113, 1074003968), (2129, 1074003968)],
  [(2049, 18254921728), (2065, 1075052544), (2081, 1075052544), (2097, 1075052544)],
  [(2017, 18254921728), (2033, 1075052544)],
  [(1985, 18254921728), (2001, 1075052544)],
  [(1586, 262720), (1713, 1409037053595488), (1745, 262208)],
  [(1650, 262208)],
  [(963, 5189121405764501488), (2113, 1074790400), (2129, 1074790400)],
  [(979, 5189121405764501488)],
  [(995, 5189121405764501488)],
  [(1586, 1049088), (1713, 1409037053333280)],
  [(1681, 1048576), (1697, 1409037053333280)],
  [(1762, 1074790912)],
  [(1713, 1409037054381856), (1794, 1049088), (1842, 1048576)],
  [(1011, 5189121405764501488)],
  [(1923, 5189121405764501488)],
  [(564, 791790893392334112)],
  [(595, 5188146770730811392)],
  [(18, 791790893392334112), (97, 648518346475569152), (113, 648518346475569152)],
  [(34, 215330141088910624), (65, 791790893392334112)],
  [(340, 791790790313119008), (356, 215330038009695520), (1521, 8704)],
  [(833, 137439087136), (865, 137439087136), (881, 137439087136), (897, 137439087136), (913, 137439087136), (1875, 137438953984)],
  [(436, 791790893392334112), (452, 215330141088910624)],
  [(500, 791790790313119008), (516, 215330038009695520)],
  [(2420, 5188998260447371840), (2449, 5188998260449468992), (2481, 5188998260457857600), (2513, 5188998260462051904), (2545, 5189103813578318400), (2561, 5189103813578318400), (2593, 5189103813578319680), (2609, 5189103813578319680), (2641, 5189121405764368336), (2657, 5189121405764368336), (2673, 5189121405764368336), (2689, 5189121405764368336), (3028, 5188146806199198272), (3057, 5188146806199198272), (3089, 5188146806199198272), (3121, 5188146806199198272), (3153, 5188146806199198272), (3169, 5188146806199198272), (3201, 5188146806199198272), (3217, 5188146806199198272), (3249, 5188146806199198272), (3265, 5188146806199198272), (3281, 5188146806199198272), (3297, 5188146806199198272)],
  [(2180, 5188146823379067456), (2788, 5188146806199198272)],
  [(260, 140737488363520)],
  [(1265, 64), (1329, 576)],
  [(1313, 576)],
  [(1425, 576)],
  [(1345, 576), (1361, 576), (1441, 576), (1457, 576)],
  [(1377, 576), (1393, 576), (1473, 576)],
  [(1409, 576), (1489, 576)],
  [(404, 791790893392334112), (420, 215330141088910624)],
  [(868, 5189121405764501488)],
  [(1042, 64)],
  [(1074, 576), (1713, 1417833146355680), (1745, 64)],
  [(1058, 576)],
  [(1089, 576), (2177, 17179869760), (2209, 292057776704), (2241, 563242011198016), (2273, 563242078306880), (2305, 851454248174144), (2321, 851454248174144), (2337, 851454248174144), (2353, 851454248174144), (2369, 851454248174144), (2385, 851454248174144), (2401, 851454248174144), (2417, 851454248174144), (2449, 851454250271296), (2481, 851454258659904), (2513, 851454262854208), (2545, 957007379120704), (2561, 957007379120704), (2593, 957007379121984), (2609, 957007379121984), (2641, 974599565170640), (2657, 974599565170640), (2673, 974599565170640), (2689, 974599565170640), (2785, 576), (2817, 576), (2849, 576), (2881, 576), (2913, 576), (2929, 576), (2945, 576), (2961, 576), (2977, 576), (2993, 576), (3009, 576), (3025, 576), (3057, 576), (3089, 576), (3121, 576), (3153, 576), (3169, 576), (3201, 576), (3217, 576), (3249, 576), (3265, 576), (3281, 576), (3297, 576)],
  [(769, 974599565303792), (1105, 576)],
  [(1121, 576)],
  [(1137, 576)],
  [(1714, 1417833147666400)],
  [(884, 5189121405764501488)],
  [(900, 5189121405764501488), (916, 5189121405764501488)],
  [(3412, 5188146806199198272)],
  [(1299, 8704)],
  [(1363, 8768), (2177, 17179877952), (2209, 292057784896), (2241, 563242011206208), (2273, 563242078315072), (2305, 851454248182336), (2321, 851454248182336), (2337, 851454248182336), (2353, 851454248182336), (2369, 851454248182336), (2385, 851454248182336), (2401, 851454248182336), (2417, 851454248182336), (2449, 851454250279488), (2481, 851454258668096), (2513, 851454262862400), (2545, 957007379128896), (2561, 957007379128896), (2593, 957007379130176), (2609, 957007379130176), (2641, 974599565178832), (2657, 974599565178832), (2673, 974599565178832), (2689, 974599565178832), (2785, 8768), (2817, 8768), (2849, 8768), (2881, 8768), (2913, 8768), (2929, 8768), (2945, 8768), (2961, 8768), (2977, 8768), (2993, 8768), (3009, 8768), (3025, 8768), (3057, 8768), (3089, 8768), (3121, 8768), (3153, 8768), (3169, 8768), (3201, 8768), (3217, 8768), (3249, 8768), (3265, 8768), (3281, 8768), (3297, 8768)],
  [(852, 5189121405764501488)],
  [(948, 5189121405764501488)],
  [(2049, 18254921728), (2065, 1075052544), (2114, 1075052544), (2130, 1075052544)],
  [(2050, 18254921728), (2066, 1075052544)],
  [(1873, 137438953984), (1986, 18254921728), (2002, 1075052544)],
  [(1587, 1311296), (2177, 17181180480), (2209, 292059087424), (2241, 563242012508736), (2273, 563242079617600), (2305, 851454249484864), (2321, 851454249484864), (2337, 851454249484864), (2353, 851454249484864), (2369, 851454249484864), (2385, 851454249484864), (2401, 851454249484864), (2417, 851454249484864), (2449, 851454251582016), (2481, 851454259970624), (2513, 851454264164928), (2545, 957007380431424), (2561, 957007380431424), (2593, 957007380432704), (2609, 957007380432704), (2641, 974599566481360), (2657, 974599566481360), (2673, 974599566481360), (2689, 974599566481360), (2785, 1311296), (2817, 1311296), (2849, 1311296), (2881, 1311296), (2913, 1311296), (2929, 1311296), (2945, 1311296), (2961, 1311296), (2977, 1311296), (2993, 1311296), (3009, 1311296), (3025, 1311296), (3057, 1311296), (3089, 1311296), (3121, 1311296), (3153, 1311296), (3169, 1311296), (3201, 1311296), (3217, 1311296), (3249, 1311296), (3265, 1311296), (3281, 1311296), (3297, 1311296)],
  [(964, 5189121405764501488)],
  [(996, 5189121405764501488)],
  [(1763, 1074790912), (2177, 18254660096), (2209, 293132567040), (2241, 563243085988352), (2273, 563243153097216), (2305, 851455322964480), (2321, 851455322964480), (2337, 851455322964480), (2353, 851455322964480), (2369, 851455322964480), (2385, 851455322964480), (2401, 851455322964480), (2417, 851455322964480), (2449, 851455325061632), (2481, 851455333450240), (2513, 851455337644544), (2545, 957008453911040), (2561, 957008453911040), (2593, 957008453912320), (2609, 957008453912320), (2641, 974600639960976), (2657, 974600639960976), (2673, 974600639960976), (2689, 974600639960976), (2785, 1074790912), (2817, 1074790912), (2849, 1074790912), (2881, 1074790912), (2913, 1074790912), (2929, 1074790912), (2945, 1074790912), (2961, 1074790912), (2977, 1074790912), (2993, 1074790912), (3009, 1074790912), (3025, 1074790912), (3057, 1074790912), (3089, 1074790912), (3121, 1074790912), (3153, 1074790912), (3169, 1074790912), (3201, 1074790912), (3217, 1074790912), (3249, 1074790912), (3265, 1074790912), (3281, 1074790912), (3297, 1074790912)],
  [(1795, 1049088)],
  [(1761, 1049088), (2177, 17179877376), (2209, 292057784320), (2241, 563242011205632), (2273, 563242078314496), (2305, 851454248181760), (2321, 851454248181760), (2337, 851454248181760), (2353, 851454248181760), (2369, 851454248181760), (2385, 851454248181760), (2401, 851454248181760), (2417, 851454248181760), (2449, 851454250278912), (2481, 851454258667520), (2513, 851454262861824), (2545, 957007379128320), (2561, 957007379128320), (2593, 957007379129600), (2609, 957007379129600), (2641, 974599565178256), (2657, 974599565178256), (2673, 974599565178256), (2689, 974599565178256), (2785, 8192), (2817, 8192), (2849, 8192), (2881, 8192), (2913, 8192), (2929, 8192), (2945, 8192), (2961, 8192), (2977, 8192), (2993, 8192), (3009, 8192), (3025, 8192), (3057, 8192), (3089, 8192), (3121, 8192), (3153, 8192), (3169, 8192), (3201, 8192), (3217, 8192), (3249, 8192), (3265, 8192), (3281, 8192), (3297, 8192)],
  [(19, 791790893392334112)],
  [(98, 648518346475569152)],
  [(114, 648518346475569152)],
  [(66, 791790893392334112)],
  [(341, 791790790313119008), (357, 215330038009695520)],
  [(437, 791790893392334112), (453, 215330141088910624)],
  [(2181, 5188146823379067456), (2209, 5188147098256974400), (2241, 5188710048210395712), (2273, 5188710048277504576), (2305, 5188998260447371840), (2321, 5188998260447371840), (2337, 5188998260447371840), (2353, 5188998260447371840), (2369, 5188998260447371840), (2385, 5188998260447371840), (2401, 5188998260447371840), (2417, 5188998260447371840), (2449, 5188998260449468992), (2481, 5188998260457857600), (2513, 5188998260462051904), (2545, 5189103813578318400), (2561, 5189103813578318400), (2593, 5189103813578319680), (2609, 5189103813578319680), (2641, 5189121405764368336), (2657, 5189121405764368336), (2673, 5189121405764368336), (2689, 5189121405764368336), (2789, 5188146806199198272), (2817, 5188146806199198272), (2849, 5188146806199198272), (2881, 5188146806199198272), (2913, 5188146806199198272), (2929, 5188146806199198272), (2945, 5188146806199198272), (2961, 5188146806199198272), (2977, 5188146806199198272), (2993, 5188146806199198272), (3009, 5188146806199198272), (3025, 5188146806199198272), (3057, 5188146806199198272), (3089, 5188146806199198272), (3121, 5188146806199198272), (3153, 5188146806199198272), (3169, 5188146806199198272), (3201, 5188146806199198272), (3217, 5188146806199198272), (3249, 5188146806199198272), (3265, 5188146806199198272), (3281, 5188146806199198272), (3297, 5188146806199198272)],
  [(261, 140737488363520)],
  [(1266, 64)],
  [(1330, 576), (1681, 64)],
  [(1442, 576), (1458, 576)],
  [(1378, 576), (1474, 576)],
  [(1410, 576), (1490, 576)],
  [(1075, 576)],
  [(1106, 576)],
  [(1122, 576), (2177, 17179869760), (2209, 292057776704), (2241, 563242011198016), (2273, 563242078306880), (2305, 851454248174144), (2321, 851454248174144), (2337, 851454248174144), (2353, 851454248174144), (2369, 851454248174144), (2385, 851454248174144), (2401, 851454248174144), (2417, 851454248174144), (2449, 851454250271296), (2481, 851454258659904), (2513, 851454262854208), (2545, 957007379120704), (2561, 957007379120704), (2593, 957007379121984), (2609, 957007379121984), (2641, 974599565170640), (2657, 974599565170640), (2673, 974599565170640), (2689, 974599565170640), (2785, 576), (2817, 576), (2849, 576), (2881, 576), (2913, 576), (2929, 576), (2945, 576), (2961, 576), (2977, 576), (2993, 576), (3009, 576), (3025, 576), (3057, 576), (3089, 576), (3121, 576), (3153, 576), (3169, 576), (3201, 576), (3217, 576), (3249, 576), (3265, 576), (3281, 576), (3297, 576)],
  [(1138, 576), (2177, 17179869760), (2209, 292057776704), (2241, 563242011198016), (2273, 563242078306880), (2305, 851454248174144), (2321, 851454248174144), (2337, 851454248174144), (2353, 851454248174144), (2369, 851454248174144), (2385, 851454248174144), (2401, 851454248174144), (2417, 851454248174144), (2449, 851454250271296), (2481, 851454258659904), (2513, 851454262854208), (2545, 957007379120704), (2561, 957007379120704), (2593, 957007379121984), (2609, 957007379121984), (2641, 974599565170640), (2657, 974599565170640), (2673, 974599565170640), (2689, 974599565170640), (2785, 576), (2817, 576), (2849, 576), (2881, 576), (2913, 576), (2929, 576), (2945, 576), (2961, 576), (2977, 576), (2993, 576), (3009, 576), (3025, 576), (3057, 576), (3089, 576), (3121, 576), (3153, 576), (3169, 576), (3201, 576), (3217, 576), (3249, 576), (3265, 576), (3281, 576), (3297, 576)],
  [(901, 5189121405764501488), (917, 5189121405764501488)],
  [(1617, 270336), (2177, 17180139520), (2209, 292058046464), (2241, 563242011467776), (2273, 563242078576640), (2305, 851454248443904), (2321, 851454248443904), (2337, 851454248443904), (2353, 851454248443904), (2369, 851454248443904), (2385, 851454248443904), (2401, 851454248443904), (2417, 851454248443904), (2449, 851454250541056), (2481, 851454258929664), (2513, 851454263123968), (2545, 957007379390464), (2561, 957007379390464), (2593, 957007379391744), (2609, 957007379391744), (2641, 974599565440400), (2657, 974599565440400), (2673, 974599565440400), (2689, 974599565440400), (2785, 270336), (2817, 270336), (2849, 270336), (2881, 270336), (2913, 270336), (2929, 270336), (2945, 270336), (2961, 270336), (2977, 270336), (2993, 270336), (3009, 270336), (3025, 270336), (3057, 270336), (3089, 270336), (3121, 270336), (3153, 270336), (3169, 270336), (3201, 270336), (3217, 270336), (3249, 270336), (3265, 270336), (3281, 270336), (3297, 270336)],
  [(853, 5189121405764501488), (1713, 1125904201810432)],
  [(2051, 18254921728), (2067, 1075052544), (2209, 293132828672), (2241, 563243086249984), (2273, 563243153358848), (2305, 851455323226112), (2321, 851455323226112), (2337, 851455323226112), (2353, 851455323226112), (2369, 851455323226112), (2385, 851455323226112), (2401, 851455323226112), (2417, 851455323226112), (2449, 851455325323264), (2481, 851455333711872), (2513, 851455337906176), (2545, 957008454172672), (2561, 957008454172672), (2593, 957008454173952), (2609, 957008454173952), (2641, 974600640222608), (2657, 974600640222608), (2673, 974600640222608), (2689, 974600640222608), (2817, 1075052544), (2849, 1075052544), (2881, 1075052544), (2913, 1075052544), (2929, 1075052544), (2945, 1075052544), (2961, 1075052544), (2977, 1075052544), (2993, 1075052544), (3009, 1075052544), (3025, 1075052544), (3057, 1075052544), (3089, 1075052544), (3121, 1075052544), (3153, 1075052544), (3169, 1075052544), (3201, 1075052544), (3217, 1075052544), (3249, 1075052544), (3265, 1075052544), (3281, 1075052544), (3297, 1075052544)],
  [(1987, 18254921728), (2003, 1075052544)],
  [(20, 791790893392334112), (145, 791790790044683552), (161, 215330037741260064), (177, 791790790044683552), (193, 791790790044683552)],
  [(99, 648518346475569152)],
  [(342, 791790790313119008), (358, 215330038009695520)],
  [(1331, 576)],
  [(1443, 576), (1459, 576), (2177, 17179902528), (2209, 292057809472), (2241, 563242011230784), (2273, 563242078339648), (2305, 851454248206912), (2321, 851454248206912), (2337, 851454248206912), (2353, 851454248206912), (2369, 851454248206912), (2385, 851454248206912), (2401, 851454248206912), (2417, 851454248206912), (2449, 851454250304064), (2481, 851454258692672), (2513, 851454262886976), (2545, 957007379153472), (2561, 957007379153472), (2593, 957007379154752), (2609, 957007379154752), (2641, 974599565203408), (2657, 974599565203408), (2673, 974599565203408), (2689, 974599565203408), (2785, 33344), (2817, 33344), (2849, 33344), (2881, 33344), (2913, 33344), (2929, 33344), (2945, 33344), (2961, 33344), (2977, 33344), (2993, 33344), (3009, 33344), (3025, 33344), (3057, 33344), (3089, 33344), (3121, 33344), (3153, 33344), (3169, 33344), (3201, 33344), (3217, 33344), (3249, 33344), (3265, 33344), (3281, 33344), (3297, 33344)],
  [(1475, 576)],
  [(1491, 576)],
  [(1107, 576), (2177, 17179869760), (2209, 292057776704), (2241, 563242011198016), (2273, 563242078306880), (2305, 851454248174144), (2321, 851454248174144), (2337, 851454248174144), (2353, 851454248174144), (2369, 851454248174144), (2385, 851454248174144), (2401, 851454248174144), (2417, 851454248174144), (2449, 851454250271296), (2481, 851454258659904), (2513, 851454262854208), (2545, 957007379120704), (2561, 957007379120704), (2593, 957007379121984), (2609, 957007379121984), (2641, 974599565170640), (2657, 974599565170640), (2673, 974599565170640), (2689, 974599565170640), (2785, 576), (2817, 576), (2849, 576), (2881, 576), (2913, 576), (2929, 576), (2945, 576), (2961, 576), (2977, 576), (2993, 576), (3009, 576), (3025, 576), (3057, 576), (3089, 576), (3121, 576), (3153, 576), (3169, 576), (3201, 576), (3217, 576), (3249, 576), (3265, 576), (3281, 576), (3297, 576)],
  [(902, 5189121405764501488)],
  [(918, 5189121405764501488)],
  [(854, 5189121405764501488), (1169, 576)],
  [(1153, 576)],
  [(1185, 576)],
  [(1201, 576)],
  [(1988, 18254921728), (2004, 1075052544), (2209, 293132828672), (2241, 563243086249984), (2273, 563243153358848), (2305, 851455323226112), (2321, 851455323226112), (2337, 851455323226112), (2353, 851455323226112), (2369, 851455323226112), (2385, 851455323226112), (2401, 851455323226112), (2417, 851455323226112), (2449, 851455325323264), (2481, 851455333711872), (2513, 851455337906176), (2545, 957008454172672), (2561, 957008454172672), (2593, 957008454173952), (2609, 957008454173952), (2641, 974600640222608), (2657, 974600640222608), (2673, 974600640222608), (2689, 974600640222608), (2817, 1075052544), (2849, 1075052544), (2881, 1075052544), (2913, 1075052544), (2929, 1075052544), (2945, 1075052544), (2961, 1075052544), (2977, 1075052544), (2993, 1075052544), (3009, 1075052544), (3025, 1075052544), (3057, 1075052544), (3089, 1075052544), (3121, 1075052544), (3153, 1075052544), (3169, 1075052544), (3201, 1075052544), (3217, 1075052544), (3249, 1075052544), (3265, 1075052544), (3281, 1075052544), (3297, 1075052544)],
  [(21, 791790893392334112)],
  [(1460, 576)],
  [(1476, 576), (2177, 17179869760), (2209, 292057776704), (2241, 563242011198016), (2273, 563242078306880), (2305, 851454248174144), (2321, 851454248174144), (2337, 851454248174144), (2353, 851454248174144), (2369, 851454248174144), (2385, 851454248174144), (2401, 851454248174144), (2417, 851454248174144), (2449, 851454250271296), (2481, 851454258659904), (2513, 851454262854208), (2545, 957007379120704), (2561, 957007379120704), (2593, 957007379121984), (2609, 957007379121984), (2641, 974599565170640), (2657, 974599565170640), (2673, 974599565170640), (2689, 974599565170640), (2785, 576), (2817, 576), (2849, 576), (2881, 576), (2913, 576), (2929, 576), (2945, 576), (2961, 576), (2977, 576), (2993, 576), (3009, 576), (3025, 576), (3057, 576), (3089, 576), (3121, 576), (3153, 576), (3169, 576), (3201, 576), (3217, 576), (3249, 576), (3265, 576), (3281, 576), (3297, 576)],
  [(1492, 576), (2177, 17179869760), (2209, 292057776704), (2241, 563242011198016), (2273, 563242078306880), (2305, 851454248174144), (2321, 851454248174144), (2337, 851454248174144), (2353, 851454248174144), (2369, 851454248174144), (2385, 851454248174144), (2401, 851454248174144), (2417, 851454248174144), (2449, 851454250271296), (2481, 851454258659904), (2513, 851454262854208), (2545, 957007379120704), (2561, 957007379120704), (2593, 957007379121984), (2609, 957007379121984), (2641, 974599565170640), (2657, 974599565170640), (2673, 974599565170640), (2689, 974599565170640), (2785, 576), (2817, 576), (2849, 576), (2881, 576), (2913, 576), (2929, 576), (2945, 576), (2961, 576), (2977, 576), (2993, 576), (3009, 576), (3025, 576), (3057, 576), (3089, 576), (3121, 576), (3153, 576), (3169, 576), (3201, 576), (3217, 576), (3249, 576), (3265, 576), (3281, 576), (3297, 576)],
  [(919, 5189121405764501488)],
  [(855, 5189121405764501488)],
  [(1170, 576), (1697, 576)],
  [(1202, 576)],
  [(1461, 576), (2177, 17179869760), (2209, 292057776704), (2241, 563242011198016), (2273, 563242078306880), (2305, 851454248174144), (2321, 851454248174144), (2337, 851454248174144), (2353, 851454248174144), (2369, 851454248174144), (2385, 851454248174144), (2401, 851454248174144), (2417, 851454248174144), (2449, 851454250271296), (2481, 851454258659904), (2513, 851454262854208), (2545, 957007379120704), (2561, 957007379120704), (2593, 957007379121984), (2609, 957007379121984), (2641, 974599565170640), (2657, 974599565170640), (2673, 974599565170640), (2689, 974599565170640), (2785, 576), (2817, 576), (2849, 576), (2881, 576), (2913, 576), (2929, 576), (2945, 576), (2961, 576), (2977, 576), (2993, 576), (3009, 576), (3025, 576), (3057, 576), (3089, 576), (3121, 576), (3153, 576), (3169, 576), (3201, 576), (3217, 576), (3249, 576), (3265, 576), (3281, 576), (3297, 576)],
  [(920, 5189121405764501488)],
  [(856, 5189121405764501488)],
  [(1171, 576)],
  [(1203, 576)]]

/-! ## The check -/

/-- value for a key -/
def find : List (Nat × Nat) → Nat → Option Nat
  | [], _ => none
  | (a, b) :: l, k => bif Nat.beq a k then some b else find l k

/-- row of a table -/
def row : List (List (Nat × Nat)) → Nat → List (Nat × Nat)
  | [], _ => []
  | r :: _, 0 => r
  | _ :: l, n + 1 => row l n

def sub (m m' : Nat) : Bool := Nat.beq (Nat.land m m') m

def subOpt (m : Nat) : Option Nat → Bool
  | none => false
  | some m' => sub m m'

def nthN : List Nat → Nat → Nat
  | [], _ => 0
  | a :: _, 0 => a
  | _ :: l, n + 1 => nthN l n

def nullable (x : Nat) : Bool := Nat.testBit nullTab (x - 64)

/-- tokens that can come first in the symbols followed by one of `la` -/
def firstSeq : List Nat → Nat → Nat
  | [], la => la
  | x :: xs, la =>
    bif Nat.blt x 64 then Nat.shiftLeft 1 x
    else bif nullable x then Nat.lor (nthN firstTab (x - 64)) (firstSeq xs la)
    else nthN firstTab (x - 64)

/-- goto of the tables for a nonterminal number -/
def gotoN (s nt : Nat) : Nat :=
  let g := (look yyPgo nt).toNat
  let j := g + s + 1
  if 1052 ≤ j then (look yyAct g).toNat
  else
    let st := (look yyAct j).toNat
    if look yyChk st = -(nt : Int) then st else (look yyAct g).toNat

/-- the item `(i, d)` with next tokens `la`, in a state with the given rows -/
def itemOK (tr cl rd : List (Nat × Nat)) (i r : Nat) (rest : List Nat) (d la : Nat) : Bool :=
  match rest with
  | [] => bif Nat.beq r 0 then true else subOpt la (find rd r)
  | x :: xs =>
    let next (y : Nat) : Bool := match find tr y with
      | none => false
      | some s' => subOpt la (find (row kernTab s') (16 * i + (d + 1)))
    bif Nat.blt x 64 then bif Nat.beq r 0 then false else next x
    else (subOpt (firstSeq xs la) (find cl x)) && (bif Nat.beq r 0 then xs.isEmpty else next (64 + nthN baseTab (x - 64)))

/-- all productions, from number `i` on, of the class with number `a`, at the start -/
def closOK (tr cl rd : List (Nat × Nat)) (a la : Nat) : Nat → List (Nat × Nat × List Nat) → Bool
  | _, [] => true
  | i, (l, r, rhs) :: ps => (bif Nat.beq l a then itemOK tr cl rd i r rhs 0 la else true) && closOK tr cl rd a la (i + 1) ps

def nthP : List (Nat × Nat × List Nat) → Nat → Nat × Nat × List Nat
  | [], _ => (0, 0, [])
  | p :: _, 0 => p
  | _ :: l, n + 1 => nthP l n

def dropN : Nat → List Nat → List Nat
  | 0, l => l
  | _, [] => []
  | n + 1, _ :: l => dropN n l

def kernOK (tr cl rd : List (Nat × Nat)) : List (Nat × Nat) → Bool
  | [] => true
  | (k, la) :: l =>
    let p := nthP fcode (k / 16)
    Nat.blt 0 (k % 16) && itemOK tr cl rd (k / 16) p.2.1 (dropN (k % 16) p.2.2) (k % 16) la && kernOK tr cl rd l

/-- the rows agree with the tables -/
def redsOK (s : Nat) : List (Nat × Nat) → Bool
  | [] => true
  | (r, m) :: l => allBelow (fun t => bif Nat.testBit m t then (match action s t with | .reduce r' => Nat.beq r r' | _ => false) else true) 64 && redsOK s l

def transOK (s : Nat) : List (Nat × Nat) → Bool
  | [] => true
  | (x, n) :: l =>
    (bif Nat.blt x 64 then (match action s x with | .shift n' => Nat.beq n n' | _ => false) else Nat.beq (gotoN s (x - 64)) n) &&
      Nat.blt n 267 && transOK s l

def closAll (tr cl rd : List (Nat × Nat)) : List (Nat × Nat) → Bool
  | [] => true
  | (a, la) :: l => closOK tr cl rd a la 0 fcode && closAll tr cl rd l

def checkState (s : Nat) : Bool :=
  let tr := row transTab s
  let cl := row closTab s
  let rd := row redsTab s
  redsOK s rd && transOK s tr && closAll tr cl rd cl && kernOK tr cl rd (row kernTab s)

/-- masks have no bits above 63, and the other tables agree with the grammar -/
def prodOK : Nat × Nat × List Nat → Bool
  | (l, r, rhs) =>
    let f := firstSeq rhs 0
    sub f (nthN firstTab (l - 64)) && (!rhs.all (fun x => Nat.blt 63 x && nullable x) || nullable l) && Nat.blt 63 l &&
      (Nat.beq r 0 || (decide (look yyR1 r = (nthN baseTab (l - 64) : Int)) && decide ((look yyR2 r).toNat = rhs.length)))

theorem fcode_eq : fine.map (fun p => (fntNum p.1, p.2.1, p.2.2.map fsymNum)) = fcode := by decide +kernel

theorem check_prods : fcode.all prodOK = true := by decide +kernel

theorem check_start : find (row closTab 0) (fntNum .file) = some 2 := by decide +kernel

set_option maxRecDepth 100000 in
theorem check_all_0 : allBelow (fun i => (checkState) (0 + i)) 27 = true := by decide +kernel

set_option maxRecDepth 100000 in
theorem check_all_1 : allBelow (fun i => (checkState) (27 + i)) 27 = true := by decide +kernel

set_option maxRecDepth 100000 in
theorem check_all_2 : allBelow (fun i => (checkState) (54 + i)) 27 = true := by decide +kernel

set_option maxRecDepth 100000 in
theorem check_all_3 : allBelow (fun i => (checkState) (81 + i)) 27 = true := by decide +kernel

set_option maxRecDepth 100000 in
theorem check_all_4 : allBelow (fun i => (checkState) (108 + i)) 27 = true := by decide +kernel

set_option maxRecDepth 100000 in
theorem check_all_5 : allBelow (fun i => (checkState) (135 + i)) 27 = true := by decide +kernel

set_option maxRecDepth 100000 in
theorem check_all_6 : allBelow (fun i => (checkState) (162 + i)) 27 = true := by decide +kernel

set_option maxRecDepth 100000 in
theorem check_all_7 : allBelow (fun i => (checkState) (189 + i)) 27 = true := by decide +kernel

set_option maxRecDepth 100000 in
theorem check_all_8 : allBelow (fun i => (checkState) (216 + i)) 27 = true := by decide +kernel

set_option maxRecDepth 100000 in
theorem check_all_9 : allBelow (fun i => (checkState) (243 + i)) 24 = true := by decide +kernel

theorem check_all : allBelow (checkState) 267 = true :=
  allBelow_join (checkState) 243 24 (allBelow_join (checkState) 216 27 (allBelow_join (checkState) 189 27 (allBelow_join (checkState) 162 27 (allBelow_join (checkState) 135 27 (allBelow_join (checkState) 108 27 (allBelow_join (checkState) 81 27 (allBelow_join (checkState) 54 27 (allBelow_join (checkState) 27 27 (allBelow_join (checkState) 0 27 rfl check_all_0) check_all_1) check_all_2) check_all_3) check_all_4) check_all_5) check_all_6) check_all_7) check_all_8) check_all_9

/-- refined productions are productions of parse.y -/
theorem fine_base : fine.all (fun p => decide (p.2.1 = 0) || decide (productions[p.2.1 - 1]? = some (p.1.base, p.2.2.map FSym.base))) = true := by decide +kernel

end Verif.Parser

