import Verif.Model.Grammar
/-
An unambiguous grammar for the same language as the one in /repo/build/parse.y:208-1056, with operator precedence spelled out by levels instead of
by `%left` declarations (parse.y:177-203). This is a specification: the parser does not use it, it runs on the generated tables.

Every production names the production of parse.y it refines (by number, from 1), or 0 if it only includes one class in
another. `test p o` are the tests whose topmost operator binds at least as tightly as level `p`: 2 conditional, 3 `is`, 4 `or`, 5 `and`,
6 comparisons, 7 `|`, 8 `^`, 9 `&`, 10 shifts, 11 sums, 12 products, 13 unary operators and primary expressions. With `o = true` they end with a
`lambda` that is not in parentheses, which extends as far to the right as possible. For statements the flag says that they end with a suite on the
same line, which swallows the line ends that follow.
-/
namespace Verif.Grammar
open Verif Verif.Lexer

/-- the classes of the refined grammar (a refinement of the grammar of build/parse.y:208-1058) -/
inductive FNT where
  | test (p : Nat) (o : Bool)
  | any (p : Nat)
  | suite (l : Bool) | stmts (l : Bool) | stmt (l : Bool) | blockStmt (l : Bool) | ifChain (l : Bool) | ifElseBlock (l : Bool)
  | forClause (o : Bool) | clauses (o : Bool)
  | file | linebreaksOpt | comments | defHeader | defHeaderTypeOpt | elif_ | simpleStmt | smallStmtsContinuation | smallStmt | semiOpt | primary | primaryInt | argumentsOpt | arguments | argument | loadArguments | loadArgument | parametersOpt | parametersTypeOpt | parameters | parametersType | parameter | parameterType | expr | exprOpt | tests | testOpt | testsOpt | commaOpt | commas | commasOpt | keyvalue | keyvaluesNoComma | keyvalues | loopVars | string | ident | number | numberInt | forClausesWithIfClausesOpt | lambdaBody | primaryExpr | anyStmts | anyIfChain
deriving DecidableEq, Repr

/-- the nonterminal of parse.y a class refines -/
def FNT.base : FNT → NT
  | .test .. => .test | .any _ => .test
  | .suite _ => .suite | .stmts _ => .stmts | .stmt _ => .stmt | .blockStmt _ => .blockStmt | .ifChain _ => .ifChain | .ifElseBlock _ => .ifElseBlock
  | .forClause _ => .forClause | .clauses _ => .forClauseWithIfClausesOpt
  | .file => .file
  | .linebreaksOpt => .linebreaksOpt
  | .comments => .comments
  | .defHeader => .defHeader
  | .defHeaderTypeOpt => .defHeaderTypeOpt
  | .elif_ => .elif_
  | .simpleStmt => .simpleStmt
  | .smallStmtsContinuation => .smallStmtsContinuation
  | .smallStmt => .smallStmt
  | .semiOpt => .semiOpt
  | .primary => .primaryExpr
  | .primaryInt => .primaryExpr
  | .argumentsOpt => .argumentsOpt
  | .arguments => .arguments
  | .argument => .argument
  | .loadArguments => .loadArguments
  | .loadArgument => .loadArgument
  | .parametersOpt => .parametersOpt
  | .parametersTypeOpt => .parametersTypeOpt
  | .parameters => .parameters
  | .parametersType => .parametersType
  | .parameter => .parameter
  | .parameterType => .parameterType
  | .expr => .expr
  | .exprOpt => .exprOpt
  | .tests => .tests
  | .testOpt => .testOpt
  | .testsOpt => .testsOpt
  | .commaOpt => .commaOpt
  | .commas => .commas
  | .commasOpt => .commasOpt
  | .keyvalue => .keyvalue
  | .keyvaluesNoComma => .keyvaluesNoComma
  | .keyvalues => .keyvalues
  | .loopVars => .loopVars
  | .string => .string
  | .ident => .ident
  | .number => .number
  | .numberInt => .number
  | .forClausesWithIfClausesOpt => .forClausesWithIfClausesOpt
  | .lambdaBody => .expr
  | .primaryExpr => .primaryExpr
  | .anyStmts => .stmts
  | .anyIfChain => .ifChain

/-- a terminal or a class (no counterpart in Go) -/
inductive FSym where
  | t (k : Kind)
  | n (a : FNT)
deriving DecidableEq, Repr

/-- the symbol of the grammar that is refined (no counterpart in Go) -/
def FSym.base : FSym → Sym
  | .t k => .t k
  | .n a => .n a.base

/-- build/parse.y:177-203 and 208-1056: the refined productions. -/
def fine : List (FNT × Nat × List FSym) := [
  (.file, 1, [.n .anyStmts, .t K.eof]),
  (.suite false, 2, [.t K.newline, .n .comments, .t K.indent, .n .anyStmts, .t K.unindent]),
  (.suite true, 3, [.n .simpleStmt, .n .linebreaksOpt]),
  (.linebreaksOpt, 4, []),
  (.linebreaksOpt, 5, [.n .linebreaksOpt, .t K.newline]),
  (.comments, 6, []),
  (.comments, 7, [.n .comments, .t K.comment, .t K.newline]),
  (.comments, 8, [.n .comments, .t K.newline]),
  (.stmts false, 9, []),
  (.stmts false, 10, [.n .anyStmts, .n (.stmt false)]),
  (.stmts true, 10, [.n .anyStmts, .n (.stmt true)]),
  (.stmts false, 11, [.n (.stmts false), .t K.newline]),
  (.stmts false, 12, [.n .anyStmts, .t K.comment, .t K.newline]),
  (.stmt false, 13, [.n .simpleStmt]),
  (.stmt false, 14, [.n (.blockStmt false)]),
  (.stmt true, 14, [.n (.blockStmt true)]),
  (.defHeader, 15, [.t K.def_, .t K.ident, .t (ch '('), .n .parametersTypeOpt, .t (ch ')')]),
  (.defHeaderTypeOpt, 16, [.n .defHeader]),
  (.defHeaderTypeOpt, 17, [.n .defHeader, .t K.arrow, .n (.any 2)]),
  (.blockStmt false, 18, [.n .defHeaderTypeOpt, .t (ch ':'), .n (.suite false)]),
  (.blockStmt true, 18, [.n .defHeaderTypeOpt, .t (ch ':'), .n (.suite true)]),
  (.blockStmt false, 19, [.t K.for_, .n .loopVars, .t K.in_, .n .expr, .t (ch ':'), .n (.suite false)]),
  (.blockStmt true, 19, [.t K.for_, .n .loopVars, .t K.in_, .n .expr, .t (ch ':'), .n (.suite true)]),
  (.blockStmt false, 20, [.n (.ifElseBlock false)]),
  (.blockStmt true, 20, [.n (.ifElseBlock true)]),
  (.ifChain false, 21, [.t K.if_, .n .expr, .t (ch ':'), .n (.suite false)]),
  (.ifChain true, 21, [.t K.if_, .n .expr, .t (ch ':'), .n (.suite true)]),
  (.ifChain false, 22, [.n .anyIfChain, .n .elif_, .n .expr, .t (ch ':'), .n (.suite false)]),
  (.ifChain true, 22, [.n .anyIfChain, .n .elif_, .n .expr, .t (ch ':'), .n (.suite true)]),
  (.ifElseBlock false, 23, [.n (.ifChain false)]),
  (.ifElseBlock true, 23, [.n (.ifChain true)]),
  (.ifElseBlock false, 24, [.n .anyIfChain, .t K.else_, .t (ch ':'), .n (.suite false)]),
  (.ifElseBlock true, 24, [.n .anyIfChain, .t K.else_, .t (ch ':'), .n (.suite true)]),
  (.elif_, 25, [.t K.else_, .t K.if_]),
  (.elif_, 26, [.t K.elif]),
  (.simpleStmt, 27, [.n .smallStmt, .n .smallStmtsContinuation, .n .semiOpt, .t K.newline]),
  (.smallStmtsContinuation, 28, []),
  (.smallStmtsContinuation, 29, [.n .smallStmtsContinuation, .t (ch ';'), .n .smallStmt]),
  (.smallStmt, 30, [.n .expr]),
  (.smallStmt, 31, [.t K.return_, .n .expr]),
  (.smallStmt, 32, [.t K.return_]),
  (.smallStmt, 33, [.n .expr, .t (ch '='), .n .expr]),
  (.smallStmt, 34, [.n .expr, .t K.augm, .n .expr]),
  (.smallStmt, 35, [.t K.pass]),
  (.smallStmt, 36, [.t K.break_]),
  (.smallStmt, 37, [.t K.continue_]),
  (.semiOpt, 38, []),
  (.semiOpt, 39, [.t (ch ';')]),
  (.primary, 40, [.n .ident]),
  (.primary, 41, [.n .number]),
  (.primaryInt, 41, [.n .numberInt]),
  (.primary, 42, [.n .string]),
  (.primary, 43, [.n .primary, .t (ch '.'), .t K.ident]),
  (.primary, 44, [.t K.load, .t (ch '('), .n .commasOpt, .n .string, .n .commas, .n .loadArguments, .n .commasOpt, .t (ch ')')]),
  (.primary, 45, [.n .primaryExpr, .t (ch '('), .n .argumentsOpt, .t (ch ')')]),
  (.primary, 46, [.n .primaryExpr, .t (ch '['), .n .expr, .t (ch ']')]),
  (.primary, 47, [.n .primaryExpr, .t (ch '['), .n .exprOpt, .t (ch ':'), .n .testOpt, .t (ch ']')]),
  (.primary, 48, [.n .primaryExpr, .t (ch '['), .n .exprOpt, .t (ch ':'), .n .testOpt, .t (ch ':'), .n .testOpt, .t (ch ']')]),
  (.primary, 49, [.t (ch '['), .n .testsOpt, .t (ch ']')]),
  (.primary, 50, [.t (ch '['), .n (.any 2), .n .forClausesWithIfClausesOpt, .t (ch ']')]),
  (.primary, 51, [.t (ch '{'), .n .keyvalue, .n .forClausesWithIfClausesOpt, .t (ch '}')]),
  (.primary, 52, [.t (ch '{'), .n .keyvalues, .t (ch '}')]),
  (.primary, 53, [.t (ch '{'), .n .tests, .n .commaOpt, .t (ch '}')]),
  (.primary, 54, [.t (ch '('), .n .testsOpt, .t (ch ')')]),
  (.argumentsOpt, 55, []),
  (.argumentsOpt, 56, [.n .arguments, .n .commasOpt]),
  (.arguments, 57, [.n .commasOpt, .n .argument]),
  (.arguments, 58, [.n .arguments, .n .commas, .n .argument]),
  (.argument, 59, [.n (.any 2)]),
  (.argument, 60, [.n .ident, .t (ch '='), .n (.any 2)]),
  (.argument, 61, [.t (ch '*'), .n (.any 2)]),
  (.argument, 62, [.t K.starStar, .n (.any 2)]),
  (.loadArguments, 63, [.n .loadArgument]),
  (.loadArguments, 64, [.n .loadArguments, .t (ch ','), .n .loadArgument]),
  (.loadArgument, 65, [.n .string]),
  (.loadArgument, 66, [.n .ident, .t (ch '='), .n .string]),
  (.parametersOpt, 67, []),
  (.parametersOpt, 68, [.n .parameters, .n .commaOpt]),
  (.parametersTypeOpt, 69, []),
  (.parametersTypeOpt, 70, [.n .parametersType, .n .commaOpt]),
  (.parameters, 71, [.n .parameter]),
  (.parameters, 72, [.n .parameters, .t (ch ','), .n .parameter]),
  (.parametersType, 73, [.n .parameterType]),
  (.parametersType, 74, [.n .parametersType, .t (ch ','), .n .parameterType]),
  (.parameter, 75, [.n .ident]),
  (.parameter, 76, [.n .ident, .t (ch '='), .n (.any 2)]),
  (.parameter, 77, [.t (ch '*'), .n .ident]),
  (.parameter, 78, [.t (ch '*')]),
  (.parameter, 79, [.t K.starStar, .n .ident]),
  (.parameterType, 80, [.n .parameter]),
  (.parameterType, 81, [.n .ident, .t (ch ':'), .n (.any 2)]),
  (.parameterType, 82, [.n .ident, .t (ch ':'), .n (.any 2), .t (ch '='), .n (.any 2)]),
  (.parameterType, 83, [.t (ch '*'), .n .ident, .t (ch ':'), .n (.any 2)]),
  (.parameterType, 84, [.t K.starStar, .n .ident, .t (ch ':'), .n (.any 2)]),
  (.expr, 85, [.n (.any 2)]),
  (.expr, 86, [.n .expr, .t (ch ','), .n (.any 3)]),
  (.exprOpt, 87, []),
  (.exprOpt, 88, [.n .expr]),
  (.tests, 118, [.n (.any 2)]),
  (.tests, 119, [.n .tests, .n .commas, .n (.any 2)]),
  (.testOpt, 120, []),
  (.testOpt, 121, [.n (.any 2)]),
  (.testsOpt, 122, []),
  (.testsOpt, 123, [.n .tests, .n .commasOpt]),
  (.commaOpt, 124, []),
  (.commaOpt, 125, [.t (ch ',')]),
  (.commas, 126, [.t (ch ',')]),
  (.commas, 127, [.n .commas, .t (ch ',')]),
  (.commasOpt, 128, []),
  (.commasOpt, 129, [.n .commas]),
  (.keyvalue, 130, [.n (.any 2), .t (ch ':'), .n (.any 2)]),
  (.keyvaluesNoComma, 131, [.n .keyvalue]),
  (.keyvaluesNoComma, 132, [.n .keyvaluesNoComma, .n .commas, .n .keyvalue]),
  (.keyvalues, 133, []),
  (.keyvalues, 134, [.n .keyvaluesNoComma]),
  (.keyvalues, 135, [.n .keyvaluesNoComma, .n .commas]),
  (.loopVars, 136, [.n .primaryExpr]),
  (.loopVars, 137, [.n .loopVars, .t (ch ','), .n .primaryExpr]),
  (.string, 138, [.t K.string]),
  (.ident, 139, [.t K.ident]),
  (.number, 140, [.t K.int, .t (ch '.'), .t K.int]),
  (.number, 141, [.t K.int, .t (ch '.')]),
  (.number, 142, [.t (ch '.'), .t K.int]),
  (.numberInt, 143, [.t K.int]),
  (.forClause false, 144, [.t K.for_, .n .loopVars, .t K.in_, .n (.test 3 false)]),
  (.forClause true, 144, [.t K.for_, .n .loopVars, .t K.in_, .n (.test 3 true)]),
  (.clauses false, 145, [.n (.forClause false)]),
  (.clauses true, 145, [.n (.forClause true)]),
  (.clauses false, 146, [.n (.clauses false), .t K.if_, .n (.test 3 false)]),
  (.clauses true, 146, [.n (.clauses false), .t K.if_, .n (.test 3 true)]),
  (.forClausesWithIfClausesOpt, 147, [.n (.clauses false)]),
  (.forClausesWithIfClausesOpt, 147, [.n (.clauses true)]),
  (.forClausesWithIfClausesOpt, 148, [.n .forClausesWithIfClausesOpt, .n (.clauses false)]),
  (.forClausesWithIfClausesOpt, 148, [.n .forClausesWithIfClausesOpt, .n (.clauses true)]),
  (.any 2, 0, [.n (.test 2 false)]),
  (.any 2, 0, [.n (.test 2 true)]),
  (.test 2 false, 117, [.n (.test 2 false), .t K.if_, .n (.any 2), .t K.else_, .n (.test 3 false)]),
  (.test 2 false, 0, [.n (.test 3 false)]),
  (.test 3 false, 116, [.n (.test 3 false), .t K.is, .n (.test 4 false)]),
  (.test 3 false, 0, [.n (.test 4 false)]),
  (.test 4 false, 109, [.n (.test 4 false), .t K.or, .n (.test 5 false)]),
  (.test 4 false, 0, [.n (.test 5 false)]),
  (.test 5 false, 110, [.n (.test 5 false), .t K.and, .n (.test 6 false)]),
  (.test 5 false, 0, [.n (.test 6 false)]),
  (.test 6 false, 101, [.n (.test 6 false), .t (ch '<'), .n (.test 7 false)]),
  (.test 6 false, 102, [.n (.test 6 false), .t (ch '>'), .n (.test 7 false)]),
  (.test 6 false, 103, [.n (.test 6 false), .t K.eq, .n (.test 7 false)]),
  (.test 6 false, 104, [.n (.test 6 false), .t K.le, .n (.test 7 false)]),
  (.test 6 false, 105, [.n (.test 6 false), .t K.ne, .n (.test 7 false)]),
  (.test 6 false, 106, [.n (.test 6 false), .t K.ge, .n (.test 7 false)]),
  (.test 6 false, 107, [.n (.test 6 false), .t K.in_, .n (.test 7 false)]),
  (.test 6 false, 108, [.n (.test 6 false), .t K.not, .t K.in_, .n (.test 7 false)]),
  (.test 6 false, 0, [.n (.test 7 false)]),
  (.test 7 false, 111, [.n (.test 7 false), .t (ch '|'), .n (.test 8 false)]),
  (.test 7 false, 0, [.n (.test 8 false)]),
  (.test 8 false, 113, [.n (.test 8 false), .t (ch '^'), .n (.test 9 false)]),
  (.test 8 false, 0, [.n (.test 9 false)]),
  (.test 9 false, 112, [.n (.test 9 false), .t (ch '&'), .n (.test 10 false)]),
  (.test 9 false, 0, [.n (.test 10 false)]),
  (.test 10 false, 114, [.n (.test 10 false), .t K.lsh, .n (.test 11 false)]),
  (.test 10 false, 115, [.n (.test 10 false), .t K.rsh, .n (.test 11 false)]),
  (.test 10 false, 0, [.n (.test 11 false)]),
  (.test 11 false, 99, [.n (.test 11 false), .t (ch '+'), .n (.test 12 false)]),
  (.test 11 false, 100, [.n (.test 11 false), .t (ch '-'), .n (.test 12 false)]),
  (.test 11 false, 0, [.n (.test 12 false)]),
  (.test 12 false, 95, [.n (.test 12 false), .t (ch '*'), .n (.test 13 false)]),
  (.test 12 false, 96, [.n (.test 12 false), .t (ch '%'), .n (.test 13 false)]),
  (.test 12 false, 97, [.n (.test 12 false), .t (ch '/'), .n (.test 13 false)]),
  (.test 12 false, 98, [.n (.test 12 false), .t K.intDiv, .n (.test 13 false)]),
  (.test 12 false, 0, [.n (.test 13 false)]),
  (.test 13 false, 91, [.t K.not, .n (.test 13 false)]),
  (.test 13 false, 92, [.t (ch '-'), .n (.test 13 false)]),
  (.test 13 false, 93, [.t (ch '+'), .n (.test 13 false)]),
  (.test 13 false, 94, [.t (ch '~'), .n (.test 13 false)]),
  (.test 2 true, 117, [.n (.test 2 false), .t K.if_, .n (.any 2), .t K.else_, .n (.test 3 true)]),
  (.test 2 true, 0, [.n (.test 3 true)]),
  (.test 3 true, 116, [.n (.test 3 false), .t K.is, .n (.test 4 true)]),
  (.test 3 true, 0, [.n (.test 4 true)]),
  (.test 4 true, 109, [.n (.test 4 false), .t K.or, .n (.test 5 true)]),
  (.test 4 true, 0, [.n (.test 5 true)]),
  (.test 5 true, 110, [.n (.test 5 false), .t K.and, .n (.test 6 true)]),
  (.test 5 true, 0, [.n (.test 6 true)]),
  (.test 6 true, 101, [.n (.test 6 false), .t (ch '<'), .n (.test 7 true)]),
  (.test 6 true, 102, [.n (.test 6 false), .t (ch '>'), .n (.test 7 true)]),
  (.test 6 true, 103, [.n (.test 6 false), .t K.eq, .n (.test 7 true)]),
  (.test 6 true, 104, [.n (.test 6 false), .t K.le, .n (.test 7 true)]),
  (.test 6 true, 105, [.n (.test 6 false), .t K.ne, .n (.test 7 true)]),
  (.test 6 true, 106, [.n (.test 6 false), .t K.ge, .n (.test 7 true)]),
  (.test 6 true, 107, [.n (.test 6 false), .t K.in_, .n (.test 7 true)]),
  (.test 6 true, 108, [.n (.test 6 false), .t K.not, .t K.in_, .n (.test 7 true)]),
  (.test 6 true, 0, [.n (.test 7 true)]),
  (.test 7 true, 111, [.n (.test 7 false), .t (ch '|'), .n (.test 8 true)]),
  (.test 7 true, 0, [.n (.test 8 true)]),
  (.test 8 true, 113, [.n (.test 8 false), .t (ch '^'), .n (.test 9 true)]),
  (.test 8 true, 0, [.n (.test 9 true)]),
  (.test 9 true, 112, [.n (.test 9 false), .t (ch '&'), .n (.test 10 true)]),
  (.test 9 true, 0, [.n (.test 10 true)]),
  (.test 10 true, 114, [.n (.test 10 false), .t K.lsh, .n (.test 11 true)]),
  (.test 10 true, 115, [.n (.test 10 false), .t K.rsh, .n (.test 11 true)]),
  (.test 10 true, 0, [.n (.test 11 true)]),
  (.test 11 true, 99, [.n (.test 11 false), .t (ch '+'), .n (.test 12 true)]),
  (.test 11 true, 100, [.n (.test 11 false), .t (ch '-'), .n (.test 12 true)]),
  (.test 11 true, 0, [.n (.test 12 true)]),
  (.test 12 true, 95, [.n (.test 12 false), .t (ch '*'), .n (.test 13 true)]),
  (.test 12 true, 96, [.n (.test 12 false), .t (ch '%'), .n (.test 13 true)]),
  (.test 12 true, 97, [.n (.test 12 false), .t (ch '/'), .n (.test 13 true)]),
  (.test 12 true, 98, [.n (.test 12 false), .t K.intDiv, .n (.test 13 true)]),
  (.test 12 true, 0, [.n (.test 13 true)]),
  (.test 13 true, 91, [.t K.not, .n (.test 13 true)]),
  (.test 13 true, 92, [.t (ch '-'), .n (.test 13 true)]),
  (.test 13 true, 93, [.t (ch '+'), .n (.test 13 true)]),
  (.test 13 true, 94, [.t (ch '~'), .n (.test 13 true)]),
  (.test 13 false, 89, [.n .primaryExpr]),
  (.test 13 true, 90, [.t K.lambda, .n .parametersOpt, .t (ch ':'), .n .lambdaBody]),
  (.lambdaBody, 85, [.n (.any 2)]),
  (.any 3, 0, [.n (.test 3 false)]),
  (.any 3, 0, [.n (.test 3 true)]),
  (.primaryExpr, 0, [.n .primary]),
  (.primaryExpr, 0, [.n .primaryInt]),
  (.anyStmts, 0, [.n (.stmts false)]),
  (.anyStmts, 0, [.n (.stmts true)]),
  (.anyIfChain, 0, [.n (.ifChain false)]),
  (.anyIfChain, 0, [.n (.ifChain true)])]

end Verif.Grammar
