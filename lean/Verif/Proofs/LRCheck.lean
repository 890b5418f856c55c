import Verif.Model.Parser
import Verif.Model.Grammar
/-
Finite facts about the parser tables, checked by the kernel: which states can be below a state on the stack, and that the stack
above holds the right-hand side of a production whenever it is reduced.
-/
namespace Verif.Parser
open Verif Verif.Lexer Verif.LR Verif.Grammar

/-- number of a nonterminal in the tables -/
def ntNum : NT → Nat
  | .file => 45
  | .suite => 39
  | .linebreaksOpt => 46
  | .comments => 40
  | .stmts => 26
  | .stmt => 27
  | .defHeader => 43
  | .defHeaderTypeOpt => 44
  | .blockStmt => 28
  | .ifChain => 30
  | .ifElseBlock => 29
  | .elif_ => 31
  | .simpleStmt => 32
  | .smallStmtsContinuation => 34
  | .smallStmt => 33
  | .semiOpt => 47
  | .primaryExpr => 16
  | .argumentsOpt => 6
  | .arguments => 5
  | .argument => 4
  | .loadArguments => 42
  | .loadArgument => 41
  | .parametersOpt => 9
  | .parametersTypeOpt => 12
  | .parameters => 8
  | .parametersType => 11
  | .parameter => 7
  | .parameterType => 10
  | .expr => 17
  | .exprOpt => 18
  | .test => 13
  | .tests => 19
  | .testOpt => 14
  | .testsOpt => 15
  | .commaOpt => 1
  | .commas => 2
  | .commasOpt => 3
  | .keyvalue => 35
  | .keyvaluesNoComma => 37
  | .keyvalues => 36
  | .loopVars => 20
  | .string => 38
  | .ident => 24
  | .number => 25
  | .forClause => 21
  | .forClauseWithIfClausesOpt => 22
  | .forClausesWithIfClausesOpt => 23

/-- the symbol number a state is entered with (`yyChk`): tokens positive, nonterminals negative -/
def symNum : Sym → Int
  | .t k => (tokNum k : Int)
  | .n a => -(ntNum a : Int)

/-- the states that can be directly below a state, in rows of 16 -/
def predRows : List (List (List Nat)) :=
  [[[], [], [0], [2], [2, 239], [2, 239], [2, 239], [2, 239], [2, 239], [2, 42, 116, 142, 180, 221, 239], [2, 239], [2, 239], [2, 239], [2, 42, 105, 116, 142, 180, 221, 239], [2, 42, 105, 116, 142, 180, 221, 239], [2, 42, 105, 116, 142, 180, 221, 239]],
   [[2, 42, 105, 116, 142, 180, 221, 239], [2, 42, 105, 116, 142, 180, 221, 239], [2, 239], [2, 239], [2, 14, 22, 42, 45, 46, 50, 80, 105, 109, 116, 142, 151, 180, 221, 239], [2, 239], [2, 239], [2, 14, 22, 25, 26, 27, 28, 33, 34, 35, 42, 45, 46, 47, 49, 50, 53, 54, 55, 56, 57, 58, 59, 60, 61, 62, 63, 64, 65, 67, 68, 69, 70, 71, 72, 73, 74, 75, 80, 105, 109, 116, 131, 142, 146, 151, 154, 163, 168, 170, 171, 180, 183, 194, 198, 199, 202, 209, 221, 227, 231, 238, 239, 244, 245, 248, 255], [2, 14, 22, 25, 26, 27, 28, 33, 34, 35, 42, 45, 46, 47, 49, 50, 53, 54, 55, 56, 57, 58, 59, 60, 61, 62, 63, 64, 65, 67, 68, 69, 70, 71, 72, 73, 74, 75, 80, 105, 109, 116, 131, 142, 146, 151, 154, 163, 168, 170, 171, 180, 183, 194, 198, 199, 202, 209, 221, 227, 231, 238, 239, 244, 245, 248, 255], [2, 14, 22, 25, 26, 27, 28, 33, 34, 35, 42, 45, 46, 47, 49, 50, 53, 54, 55, 56, 57, 58, 59, 60, 61, 62, 63, 64, 65, 67, 68, 69, 70, 71, 72, 73, 74, 75, 80, 105, 109, 116, 131, 142, 146, 151, 154, 163, 168, 170, 171, 180, 183, 194, 198, 199, 202, 209, 221, 227, 231, 238, 239, 244, 245, 248, 255], [2, 14, 22, 25, 26, 27, 28, 33, 34, 35, 42, 45, 46, 47, 49, 50, 53, 54, 55, 56, 57, 58, 59, 60, 61, 62, 63, 64, 65, 67, 68, 69, 70, 71, 72, 73, 74, 75, 80, 105, 109, 116, 131, 142, 146, 151, 154, 163, 168, 170, 171, 180, 183, 194, 198, 199, 202, 209, 221, 227, 231, 238, 239, 244, 245, 248, 255], [2, 14, 22, 25, 26, 27, 28, 33, 34, 35, 42, 45, 46, 47, 49, 50, 53, 54, 55, 56, 57, 58, 59, 60, 61, 62, 63, 64, 65, 67, 68, 69, 70, 71, 72, 73, 74, 75, 80, 105, 109, 116, 131, 142, 146, 151, 154, 163, 168, 170, 171, 180, 183, 194, 198, 199, 202, 209, 221, 227, 231, 238, 239, 244, 245, 248, 255], [2, 14, 22, 25, 26, 27, 28, 33, 34, 35, 42, 45, 46, 47, 49, 50, 53, 54, 55, 56, 57, 58, 59, 60, 61, 62, 63, 64, 65, 67, 68, 69, 70, 71, 72, 73, 74, 75, 80, 105, 109, 116, 131, 142, 146, 151, 154, 163, 168, 170, 171, 180, 183, 194, 198, 199, 202, 209, 221, 227, 231, 238, 239, 244, 245, 248, 255], [2, 11, 14, 22, 25, 26, 27, 28, 33, 34, 35, 42, 45, 46, 47, 49, 50, 53, 54, 55, 56, 57, 58, 59, 60, 61, 62, 63, 64, 65, 67, 68, 69, 70, 71, 72, 73, 74, 75, 80, 105, 109, 110, 116, 131, 142, 151, 154, 162, 163, 168, 170, 171, 180, 183, 198, 199, 202, 209, 221, 227, 231, 238, 239, 244, 245, 248, 255], [2, 11, 14, 22, 25, 26, 27, 28, 33, 34, 35, 42, 45, 46, 47, 49, 50, 53, 54, 55, 56, 57, 58, 59, 60, 61, 62, 63, 64, 65, 67, 68, 69, 70, 71, 72, 73, 74, 75, 80, 105, 109, 110, 116, 131, 142, 146, 151, 154, 162, 163, 168, 170, 171, 180, 183, 194, 198, 199, 202, 209, 221, 227, 231, 238, 239, 244, 245, 248, 255], [2, 11, 14, 22, 25, 26, 27, 28, 33, 34, 35, 42, 45, 46, 47, 49, 50, 53, 54, 55, 56, 57, 58, 59, 60, 61, 62, 63, 64, 65, 67, 68, 69, 70, 71, 72, 73, 74, 75, 80, 105, 109, 110, 116, 131, 142, 146, 151, 154, 162, 163, 168, 170, 171, 180, 183, 194, 198, 199, 202, 209, 221, 227, 231, 238, 239, 244, 245, 248, 255]],
   [[2, 11, 14, 22, 25, 26, 27, 28, 33, 34, 35, 42, 45, 46, 47, 49, 50, 53, 54, 55, 56, 57, 58, 59, 60, 61, 62, 63, 64, 65, 67, 68, 69, 70, 71, 72, 73, 74, 75, 80, 105, 109, 110, 116, 131, 142, 146, 151, 154, 162, 163, 168, 170, 171, 180, 183, 194, 198, 199, 202, 209, 221, 227, 231, 238, 239, 244, 245, 248, 255], [2, 11, 14, 22, 25, 26, 27, 28, 33, 34, 35, 42, 45, 46, 47, 49, 50, 53, 54, 55, 56, 57, 58, 59, 60, 61, 62, 63, 64, 65, 67, 68, 69, 70, 71, 72, 73, 74, 75, 80, 105, 109, 110, 116, 131, 142, 146, 151, 154, 162, 163, 168, 170, 171, 180, 183, 194, 198, 199, 202, 209, 221, 227, 231, 238, 239, 244, 245, 248, 255], [2, 11, 14, 22, 25, 26, 27, 28, 33, 34, 35, 42, 45, 46, 47, 49, 50, 53, 54, 55, 56, 57, 58, 59, 60, 61, 62, 63, 64, 65, 67, 68, 69, 70, 71, 72, 73, 74, 75, 80, 105, 109, 110, 116, 131, 142, 146, 151, 154, 162, 163, 168, 170, 171, 180, 183, 194, 198, 199, 202, 209, 221, 227, 231, 238, 239, 244, 245, 248, 255], [2, 11, 14, 22, 25, 26, 27, 28, 33, 34, 35, 42, 45, 46, 47, 49, 50, 53, 54, 55, 56, 57, 58, 59, 60, 61, 62, 63, 64, 65, 67, 68, 69, 70, 71, 72, 73, 74, 75, 80, 105, 109, 110, 116, 131, 142, 146, 151, 154, 162, 163, 168, 170, 171, 180, 183, 194, 198, 199, 202, 209, 221, 227, 231, 238, 239, 244, 245, 248, 255], [2, 11, 14, 22, 24, 25, 26, 27, 28, 33, 34, 35, 42, 45, 46, 47, 49, 50, 53, 54, 55, 56, 57, 58, 59, 60, 61, 62, 63, 64, 65, 67, 68, 69, 70, 71, 72, 73, 74, 75, 80, 85, 86, 105, 109, 110, 116, 131, 141, 142, 146, 151, 153, 154, 162, 163, 168, 170, 171, 180, 183, 189, 190, 194, 198, 199, 202, 209, 221, 226, 227, 231, 236, 238, 239, 244, 245, 248, 255, 260], [2, 11, 14, 22, 25, 26, 27, 28, 33, 34, 35, 42, 45, 46, 47, 49, 50, 53, 54, 55, 56, 57, 58, 59, 60, 61, 62, 63, 64, 65, 67, 68, 69, 70, 71, 72, 73, 74, 75, 80, 105, 109, 110, 116, 131, 142, 146, 151, 154, 162, 163, 168, 170, 171, 180, 183, 194, 198, 199, 202, 209, 221, 227, 231, 238, 239, 244, 245, 248, 255], [2, 11, 14, 22, 25, 26, 27, 28, 33, 34, 35, 42, 45, 46, 47, 49, 50, 53, 54, 55, 56, 57, 58, 59, 60, 61, 62, 63, 64, 65, 67, 68, 69, 70, 71, 72, 73, 74, 75, 80, 105, 109, 110, 116, 131, 142, 146, 151, 154, 162, 163, 168, 170, 171, 180, 183, 194, 198, 199, 202, 209, 221, 227, 231, 238, 239, 244, 245, 248, 255], [2, 11, 14, 22, 25, 26, 27, 28, 33, 34, 35, 42, 45, 46, 47, 49, 50, 53, 54, 55, 56, 57, 58, 59, 60, 61, 62, 63, 64, 65, 67, 68, 69, 70, 71, 72, 73, 74, 75, 80, 105, 109, 110, 116, 131, 142, 146, 151, 154, 157, 162, 163, 168, 170, 171, 180, 183, 194, 198, 199, 202, 209, 221, 227, 231, 236, 238, 239, 244, 245, 248, 255, 260, 261], [6], [9], [10], [11], [11, 162], [13], [13], [13, 48, 77, 111, 112, 115, 149, 178]],
   [[14], [18], [19], [19], [19], [20, 93, 98, 101, 113, 114, 122, 123, 124, 125, 126, 127, 128, 129, 130, 132, 133, 134, 135, 136, 137, 138, 139, 140, 182, 196, 205, 211, 214, 216, 223, 232, 233, 235, 237, 243, 246, 253, 256, 257, 262], [20, 93, 98, 101, 113, 114, 122, 123, 124, 125, 126, 127, 128, 129, 130, 132, 133, 134, 135, 136, 137, 138, 139, 140, 182, 196, 205, 211, 214, 216, 223, 232, 233, 235, 237, 243, 246, 253, 256, 257, 262], [20, 93, 98, 101, 113, 114, 122, 123, 124, 125, 126, 127, 128, 129, 130, 132, 133, 134, 135, 136, 137, 138, 139, 140, 182, 196, 205, 211, 214, 216, 223, 232, 233, 235, 237, 243, 246, 253, 256, 257, 262], [20, 93, 98, 101, 113, 114, 122, 123, 124, 125, 126, 127, 128, 129, 130, 132, 133, 134, 135, 136, 137, 138, 139, 140, 182, 196, 205, 211, 214, 216, 223, 232, 233, 235, 237, 243, 246, 253, 256, 257, 262], [20, 93, 98, 101, 113, 114, 124, 125, 126, 127, 128, 129, 130, 132, 133, 134, 135, 136, 137, 138, 139, 140, 182, 196, 205, 211, 214, 216, 223, 232, 233, 235, 237, 243, 246, 253, 256, 257, 262], [20, 93, 98, 101, 113, 114, 124, 125, 126, 127, 128, 129, 130, 132, 133, 134, 135, 136, 137, 138, 139, 140, 182, 196, 205, 211, 214, 216, 223, 232, 233, 235, 237, 243, 246, 253, 256, 257, 262], [20, 93, 98, 101, 113, 114, 132, 133, 139, 140, 196, 205, 211, 214, 216, 223, 232, 233, 235, 237, 243, 246, 253, 256, 257, 262], [20, 93, 98, 101, 113, 114, 132, 133, 139, 140, 196, 205, 211, 214, 216, 223, 232, 233, 235, 237, 243, 246, 253, 256, 257, 262], [20, 93, 98, 101, 113, 114, 132, 133, 139, 140, 196, 205, 211, 214, 216, 223, 232, 233, 235, 237, 243, 246, 253, 256, 257, 262], [20, 93, 98, 101, 113, 114, 132, 133, 139, 140, 196, 205, 211, 214, 216, 223, 232, 233, 235, 237, 243, 246, 253, 256, 257, 262], [20, 93, 98, 101, 113, 114, 132, 133, 139, 140, 196, 205, 211, 214, 216, 223, 232, 233, 235, 237, 243, 246, 253, 256, 257, 262]],
   [[20, 93, 98, 101, 113, 114, 132, 133, 139, 140, 196, 205, 211, 214, 216, 223, 232, 233, 235, 237, 243, 246, 253, 256, 257, 262], [20, 93, 98, 101, 113, 114, 132, 133, 139, 140, 196, 205, 211, 214, 216, 223, 232, 233, 235, 237, 243, 246, 253, 256, 257, 262], [20, 93, 98, 101, 113, 114, 132, 133, 139, 140, 196, 205, 211, 214, 216, 223, 232, 233, 235, 237, 243, 246, 253, 256, 257, 262], [20, 93, 98, 101, 113, 114, 139, 140, 196, 205, 211, 214, 216, 223, 232, 233, 235, 237, 243, 246, 253, 256, 257, 262], [20, 93, 98, 101, 113, 114, 132, 139, 140, 196, 205, 211, 214, 216, 223, 232, 233, 235, 237, 243, 246, 253, 256, 257, 262], [20, 93, 98, 101, 113, 114, 124, 125, 126, 127, 128, 129, 130, 132, 133, 139, 140, 182, 196, 205, 211, 214, 216, 223, 232, 233, 235, 237, 243, 246, 253, 256, 257, 262], [20, 93, 98, 101, 113, 114, 124, 125, 126, 127, 128, 129, 130, 132, 133, 134, 136, 139, 140, 182, 196, 205, 211, 214, 216, 223, 232, 233, 235, 237, 243, 246, 253, 256, 257, 262], [20, 93, 98, 101, 113, 114, 124, 125, 126, 127, 128, 129, 130, 132, 133, 134, 139, 140, 182, 196, 205, 211, 214, 216, 223, 232, 233, 235, 237, 243, 246, 253, 256, 257, 262], [20, 93, 98, 101, 113, 114, 124, 125, 126, 127, 128, 129, 130, 132, 133, 134, 135, 136, 139, 140, 182, 196, 205, 211, 214, 216, 223, 232, 233, 235, 237, 243, 246, 253, 256, 257, 262], [20, 93, 98, 101, 113, 114, 124, 125, 126, 127, 128, 129, 130, 132, 133, 134, 135, 136, 139, 140, 182, 196, 205, 211, 214, 216, 223, 232, 233, 235, 237, 243, 246, 253, 256, 257, 262], [20, 93, 98, 101, 113, 114, 140, 196, 205, 211, 214, 216, 223, 232, 233, 235, 237, 243, 246, 253, 256, 257, 262], [20, 93, 98, 101, 114, 140, 196, 205, 211, 214, 216, 232, 233, 235, 243, 246, 256, 257, 262], [21], [22], [23, 44, 179], [23, 44, 179]],
   [[23, 44, 179], [24], [24], [24], [24, 153], [24, 153], [24, 153], [25], [26], [27], [28], [32], [33], [33], [33, 35], [34]],
   [[34], [34], [34], [34], [35], [35], [37], [38], [41], [41], [42], [42, 116, 142, 180, 221], [42, 116, 142, 180, 221], [43], [43, 210], [45]],
   [[46], [47], [49], [50], [51], [51], [53], [54], [55], [56], [57], [58], [59], [60], [61], [62]],
   [[63], [64], [65], [66], [67], [68], [69], [70], [71], [72], [73], [74], [75], [76], [77], [78]],
   [[79], [79], [79], [79, 91, 249], [79, 91, 94, 99, 145, 206], [80], [80], [81], [82], [82], [84, 188], [85], [86], [91], [92], [93]],
   [[93, 95], [93, 95, 159, 165], [93, 95, 159, 165], [94], [94], [95], [96], [97], [97], [97], [98, 216], [99], [100], [102], [104], [105]],
   [[107], [108], [109], [110], [115], [116], [131], [140], [141], [141], [141], [141, 226], [141, 226], [141, 226], [141, 226], [142]],
   [[144], [145], [145], [146], [146, 194], [146, 194], [146, 194], [146, 194], [147, 163, 168, 171, 194, 236], [149], [150], [151], [153], [154], [157], [159]],
   [[159, 165], [160, 208], [162], [163, 168], [165], [167], [170], [171], [171], [176], [176], [176], [177], [178], [180], [183]],
   [[184], [185], [185], [188], [189], [190], [194], [197], [198], [199], [202], [202, 248], [206], [209], [210], [217]],
   [[218], [221], [226], [227], [228], [229], [231], [234], [234], [236], [236], [236, 260], [236, 260], [238], [239], [243]],
   [[244], [245], [248], [249], [249], [252], [255], [258], [259], [260], [261]]]

def preds (s : Nat) : List Nat := (predRows.getD (s / 16) []).getD (s % 16) []

/-- the productions a state can reduce -/
def cand (s : Nat) : List Nat :=
  if look yyDef s = -2 then (if s = 79 then [55, 128] else if s = 169 then [125, 126] else []) else if look yyDef s = 0 then [] else [(look yyDef s).toNat]

/-- `n` is entered from `s` with symbol `x` -/
def edge (s n : Nat) (x : Int) : Bool := decide (n < 267) && (preds n).contains s && decide (look yyChk n = x)

def checkAct (s t : Nat) : Bool :=
  match action s t with
  | .shift n => edge s n t
  | .reduce r => (cand s).contains r
  | _ => true

/-- all `n < k` satisfy `p` -/
def allBelow (p : Nat → Bool) : Nat → Bool
  | 0 => true
  | k + 1 => p k && allBelow p k

theorem allBelow_join (p : Nat → Bool) (a : Nat) : ∀ b, allBelow p a = true → allBelow (fun i => p (a + i)) b = true → allBelow p (a + b) = true := by
  intro b
  induction b with
  | zero => intro h _; exact h
  | succ b ih =>
    intro h h2
    have h2 : (p (a + b) && allBelow (fun i => p (a + i)) b) = true := h2
    rw [Bool.and_eq_true] at h2
    show (p (a + b) && allBelow p (a + b)) = true
    rw [h2.1, ih h h2.2]; rfl

theorem allBelow_spec (p : Nat → Bool) : ∀ k, allBelow p k = true → ∀ n, n < k → p n = true := by
  intro k
  induction k with
  | zero => intro _ n h; exact absurd h (Nat.not_lt_zero _)
  | succ k ih =>
    intro h n hn
    simp only [allBelow, Bool.and_eq_true] at h
    rcases Nat.lt_succ_iff_lt_or_eq.1 hn with h' | rfl
    · exact ih h.2 n h'
    · exact h.1

/-- going down the stack from the states `ss` along the symbols `xs` (last symbol first): `f` holds for what is below -/
def descend (f : Nat → Bool) : List Sym → Nat → Bool
  | [], s => f s
  | x :: xs, s => decide (look yyChk s = symNum x) && (preds s).all (descend f xs)

def production (r : Nat) : Option (NT × List Sym) := if r = 0 then none else productions[r - 1]?

def checkReduce (s r : Nat) : Bool :=
  match production r with
  | none => false
  | some (a, rhs) =>
    decide ((look yyR2 r).toNat = rhs.length) &&
      descend (fun b => if r = 1 then b == 0 else edge b (goto_ b r) (-(ntNum a : Int))) rhs.reverse s

set_option maxRecDepth 100000 in
theorem check_act_0 : allBelow (fun i => (fun s => allBelow (checkAct s) 64) (0 + i)) 67 = true := by decide +kernel

set_option maxRecDepth 100000 in
theorem check_act_1 : allBelow (fun i => (fun s => allBelow (checkAct s) 64) (67 + i)) 67 = true := by decide +kernel

set_option maxRecDepth 100000 in
theorem check_act_2 : allBelow (fun i => (fun s => allBelow (checkAct s) 64) (134 + i)) 67 = true := by decide +kernel

set_option maxRecDepth 100000 in
theorem check_act_3 : allBelow (fun i => (fun s => allBelow (checkAct s) 64) (201 + i)) 66 = true := by decide +kernel

theorem check_act : allBelow (fun s => allBelow (checkAct s) 64) 267 = true :=
  allBelow_join (fun s => allBelow (checkAct s) 64) 201 66 (allBelow_join (fun s => allBelow (checkAct s) 64) 134 67 (allBelow_join (fun s => allBelow (checkAct s) 64) 67 67 (allBelow_join (fun s => allBelow (checkAct s) 64) 0 67 rfl check_act_0) check_act_1) check_act_2) check_act_3

set_option maxRecDepth 100000 in
theorem check_reduce_0 : allBelow (fun i => (fun s => (cand s).all (checkReduce s)) (0 + i)) 67 = true := by decide +kernel

set_option maxRecDepth 100000 in
theorem check_reduce_1 : allBelow (fun i => (fun s => (cand s).all (checkReduce s)) (67 + i)) 67 = true := by decide +kernel

set_option maxRecDepth 100000 in
theorem check_reduce_2 : allBelow (fun i => (fun s => (cand s).all (checkReduce s)) (134 + i)) 67 = true := by decide +kernel

set_option maxRecDepth 100000 in
theorem check_reduce_3 : allBelow (fun i => (fun s => (cand s).all (checkReduce s)) (201 + i)) 66 = true := by decide +kernel

theorem check_reduce : allBelow (fun s => (cand s).all (checkReduce s)) 267 = true :=
  allBelow_join (fun s => (cand s).all (checkReduce s)) 201 66 (allBelow_join (fun s => (cand s).all (checkReduce s)) 134 67 (allBelow_join (fun s => (cand s).all (checkReduce s)) 67 67 (allBelow_join (fun s => (cand s).all (checkReduce s)) 0 67 rfl check_reduce_0) check_reduce_1) check_reduce_2) check_reduce_3

end Verif.Parser
