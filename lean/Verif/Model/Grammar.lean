import Verif.Model.Lexer
/-
The grammar of BUILD and .bzl files as written in /repo/build/parse.y:208-1056, without the semantic actions. This is a specification: the
parser (Model/Parser.lean) does not use it, it runs on the generated tables.
-/
namespace Verif.Grammar
open Verif Verif.Lexer

/-- the nonterminals of parse.y -/
inductive NT where
  | file | suite | linebreaksOpt | comments | stmts | stmt | defHeader | defHeaderTypeOpt | blockStmt | ifChain | ifElseBlock | elif_ | simpleStmt | smallStmtsContinuation | smallStmt | semiOpt | primaryExpr | argumentsOpt | arguments | argument | loadArguments | loadArgument | parametersOpt | parametersTypeOpt | parameters | parametersType | parameter | parameterType | expr | exprOpt | test | tests | testOpt | testsOpt | commaOpt | commas | commasOpt | keyvalue | keyvaluesNoComma | keyvalues | loopVars | string | ident | number | forClause | forClauseWithIfClausesOpt | forClausesWithIfClausesOpt
deriving DecidableEq, Repr

/-- a terminal (a token kind) or a nonterminal (build/parse.y:61-130) -/
inductive Sym where
  | t (k : Kind)
  | n (a : NT)
deriving DecidableEq, Repr

/-- the token kind of a character (build/parse.y:61-90) -/
def ch (c : Char) : Kind := c.toNat

/-- build/parse.y:208-1056: the productions in the order of the file, so that production number `r` of the generated parser is entry
`r - 1`. -/
def productions : List (NT × List Sym) := [
  (.file, [.n .stmts, .t K.eof]),
  (.suite, [.t K.newline, .n .comments, .t K.indent, .n .stmts, .t K.unindent]),
  (.suite, [.n .simpleStmt, .n .linebreaksOpt]),
  (.linebreaksOpt, []),
  (.linebreaksOpt, [.n .linebreaksOpt, .t K.newline]),
  (.comments, []),
  (.comments, [.n .comments, .t K.comment, .t K.newline]),
  (.comments, [.n .comments, .t K.newline]),
  (.stmts, []),
  (.stmts, [.n .stmts, .n .stmt]),
  (.stmts, [.n .stmts, .t K.newline]),
  (.stmts, [.n .stmts, .t K.comment, .t K.newline]),
  (.stmt, [.n .simpleStmt]),
  (.stmt, [.n .blockStmt]),
  (.defHeader, [.t K.def_, .t K.ident, .t (ch '('), .n .parametersTypeOpt, .t (ch ')')]),
  (.defHeaderTypeOpt, [.n .defHeader]),
  (.defHeaderTypeOpt, [.n .defHeader, .t K.arrow, .n .test]),
  (.blockStmt, [.n .defHeaderTypeOpt, .t (ch ':'), .n .suite]),
  (.blockStmt, [.t K.for_, .n .loopVars, .t K.in_, .n .expr, .t (ch ':'), .n .suite]),
  (.blockStmt, [.n .ifElseBlock]),
  (.ifChain, [.t K.if_, .n .expr, .t (ch ':'), .n .suite]),
  (.ifChain, [.n .ifChain, .n .elif_, .n .expr, .t (ch ':'), .n .suite]),
  (.ifElseBlock, [.n .ifChain]),
  (.ifElseBlock, [.n .ifChain, .t K.else_, .t (ch ':'), .n .suite]),
  (.elif_, [.t K.else_, .t K.if_]),
  (.elif_, [.t K.elif]),
  (.simpleStmt, [.n .smallStmt, .n .smallStmtsContinuation, .n .semiOpt, .t K.newline]),
  (.smallStmtsContinuation, []),
  (.smallStmtsContinuation, [.n .smallStmtsContinuation, .t (ch ';'), .n .smallStmt]),
  (.smallStmt, [.n .expr]),
  (.smallStmt, [.t K.return_, .n .expr]),
  (.smallStmt, [.t K.return_]),
  (.smallStmt, [.n .expr, .t (ch '='), .n .expr]),
  (.smallStmt, [.n .expr, .t K.augm, .n .expr]),
  (.smallStmt, [.t K.pass]),
  (.smallStmt, [.t K.break_]),
  (.smallStmt, [.t K.continue_]),
  (.semiOpt, []),
  (.semiOpt, [.t (ch ';')]),
  (.primaryExpr, [.n .ident]),
  (.primaryExpr, [.n .number]),
  (.primaryExpr, [.n .string]),
  (.primaryExpr, [.n .primaryExpr, .t (ch '.'), .t K.ident]),
  (.primaryExpr, [.t K.load, .t (ch '('), .n .commasOpt, .n .string, .n .commas, .n .loadArguments, .n .commasOpt, .t (ch ')')]),
  (.primaryExpr, [.n .primaryExpr, .t (ch '('), .n .argumentsOpt, .t (ch ')')]),
  (.primaryExpr, [.n .primaryExpr, .t (ch '['), .n .expr, .t (ch ']')]),
  (.primaryExpr, [.n .primaryExpr, .t (ch '['), .n .exprOpt, .t (ch ':'), .n .testOpt, .t (ch ']')]),
  (.primaryExpr, [.n .primaryExpr, .t (ch '['), .n .exprOpt, .t (ch ':'), .n .testOpt, .t (ch ':'), .n .testOpt, .t (ch ']')]),
  (.primaryExpr, [.t (ch '['), .n .testsOpt, .t (ch ']')]),
  (.primaryExpr, [.t (ch '['), .n .test, .n .forClausesWithIfClausesOpt, .t (ch ']')]),
  (.primaryExpr, [.t (ch '{'), .n .keyvalue, .n .forClausesWithIfClausesOpt, .t (ch '}')]),
  (.primaryExpr, [.t (ch '{'), .n .keyvalues, .t (ch '}')]),
  (.primaryExpr, [.t (ch '{'), .n .tests, .n .commaOpt, .t (ch '}')]),
  (.primaryExpr, [.t (ch '('), .n .testsOpt, .t (ch ')')]),
  (.argumentsOpt, []),
  (.argumentsOpt, [.n .arguments, .n .commasOpt]),
  (.arguments, [.n .commasOpt, .n .argument]),
  (.arguments, [.n .arguments, .n .commas, .n .argument]),
  (.argument, [.n .test]),
  (.argument, [.n .ident, .t (ch '='), .n .test]),
  (.argument, [.t (ch '*'), .n .test]),
  (.argument, [.t K.starStar, .n .test]),
  (.loadArguments, [.n .loadArgument]),
  (.loadArguments, [.n .loadArguments, .t (ch ','), .n .loadArgument]),
  (.loadArgument, [.n .string]),
  (.loadArgument, [.n .ident, .t (ch '='), .n .string]),
  (.parametersOpt, []),
  (.parametersOpt, [.n .parameters, .n .commaOpt]),
  (.parametersTypeOpt, []),
  (.parametersTypeOpt, [.n .parametersType, .n .commaOpt]),
  (.parameters, [.n .parameter]),
  (.parameters, [.n .parameters, .t (ch ','), .n .parameter]),
  (.parametersType, [.n .parameterType]),
  (.parametersType, [.n .parametersType, .t (ch ','), .n .parameterType]),
  (.parameter, [.n .ident]),
  (.parameter, [.n .ident, .t (ch '='), .n .test]),
  (.parameter, [.t (ch '*'), .n .ident]),
  (.parameter, [.t (ch '*')]),
  (.parameter, [.t K.starStar, .n .ident]),
  (.parameterType, [.n .parameter]),
  (.parameterType, [.n .ident, .t (ch ':'), .n .test]),
  (.parameterType, [.n .ident, .t (ch ':'), .n .test, .t (ch '='), .n .test]),
  (.parameterType, [.t (ch '*'), .n .ident, .t (ch ':'), .n .test]),
  (.parameterType, [.t K.starStar, .n .ident, .t (ch ':'), .n .test]),
  (.expr, [.n .test]),
  (.expr, [.n .expr, .t (ch ','), .n .test]),
  (.exprOpt, []),
  (.exprOpt, [.n .expr]),
  (.test, [.n .primaryExpr]),
  (.test, [.t K.lambda, .n .parametersOpt, .t (ch ':'), .n .expr]),
  (.test, [.t K.not, .n .test]),
  (.test, [.t (ch '-'), .n .test]),
  (.test, [.t (ch '+'), .n .test]),
  (.test, [.t (ch '~'), .n .test]),
  (.test, [.n .test, .t (ch '*'), .n .test]),
  (.test, [.n .test, .t (ch '%'), .n .test]),
  (.test, [.n .test, .t (ch '/'), .n .test]),
  (.test, [.n .test, .t K.intDiv, .n .test]),
  (.test, [.n .test, .t (ch '+'), .n .test]),
  (.test, [.n .test, .t (ch '-'), .n .test]),
  (.test, [.n .test, .t (ch '<'), .n .test]),
  (.test, [.n .test, .t (ch '>'), .n .test]),
  (.test, [.n .test, .t K.eq, .n .test]),
  (.test, [.n .test, .t K.le, .n .test]),
  (.test, [.n .test, .t K.ne, .n .test]),
  (.test, [.n .test, .t K.ge, .n .test]),
  (.test, [.n .test, .t K.in_, .n .test]),
  (.test, [.n .test, .t K.not, .t K.in_, .n .test]),
  (.test, [.n .test, .t K.or, .n .test]),
  (.test, [.n .test, .t K.and, .n .test]),
  (.test, [.n .test, .t (ch '|'), .n .test]),
  (.test, [.n .test, .t (ch '&'), .n .test]),
  (.test, [.n .test, .t (ch '^'), .n .test]),
  (.test, [.n .test, .t K.lsh, .n .test]),
  (.test, [.n .test, .t K.rsh, .n .test]),
  (.test, [.n .test, .t K.is, .n .test]),
  (.test, [.n .test, .t K.if_, .n .test, .t K.else_, .n .test]),
  (.tests, [.n .test]),
  (.tests, [.n .tests, .n .commas, .n .test]),
  (.testOpt, []),
  (.testOpt, [.n .test]),
  (.testsOpt, []),
  (.testsOpt, [.n .tests, .n .commasOpt]),
  (.commaOpt, []),
  (.commaOpt, [.t (ch ',')]),
  (.commas, [.t (ch ',')]),
  (.commas, [.n .commas, .t (ch ',')]),
  (.commasOpt, []),
  (.commasOpt, [.n .commas]),
  (.keyvalue, [.n .test, .t (ch ':'), .n .test]),
  (.keyvaluesNoComma, [.n .keyvalue]),
  (.keyvaluesNoComma, [.n .keyvaluesNoComma, .n .commas, .n .keyvalue]),
  (.keyvalues, []),
  (.keyvalues, [.n .keyvaluesNoComma]),
  (.keyvalues, [.n .keyvaluesNoComma, .n .commas]),
  (.loopVars, [.n .primaryExpr]),
  (.loopVars, [.n .loopVars, .t (ch ','), .n .primaryExpr]),
  (.string, [.t K.string]),
  (.ident, [.t K.ident]),
  (.number, [.t K.int, .t (ch '.'), .t K.int]),
  (.number, [.t K.int, .t (ch '.')]),
  (.number, [.t (ch '.'), .t K.int]),
  (.number, [.t K.int]),
  (.forClause, [.t K.for_, .n .loopVars, .t K.in_, .n .test]),
  (.forClauseWithIfClausesOpt, [.n .forClause]),
  (.forClauseWithIfClausesOpt, [.n .forClauseWithIfClausesOpt, .t K.if_, .n .test]),
  (.forClausesWithIfClausesOpt, [.n .forClauseWithIfClausesOpt]),
  (.forClausesWithIfClausesOpt, [.n .forClausesWithIfClausesOpt, .n .forClauseWithIfClausesOpt])]

end Verif.Grammar
