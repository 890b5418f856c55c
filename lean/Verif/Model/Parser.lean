import Verif.Model.Lexer
import Verif.Model.ParseTables
/-
Model of the parser: the LALR machine `yyParse` (/repo/build/parse.y.go:846-1020) with the generated tables
(Model/ParseTables.lean), and the semantic actions of /repo/build/parse.y (rules are numbered in the order of the file, as in the
`switch` of parse.y.go:1019-2090).

Simplifications. The fields `kv`, `kvs`, `string`, `ifstmt`, `def_header` of `yySymType` are stored in `expr`/`exprs`. `lastStmt` always
is nil or the last statement of the list in the same value, so a flag is enough (`last`). For an empty production Go starts
from a stale stack entry; the model starts from the zero value (each such rule sets every field that is read later). Error
recovery is not modelled: `input.Error` panics, so the first error ends the parse (`none`); the same value stands for a Go run-time
panic in an action, which `parse` turns into an error.
-/
namespace Verif.Parser
open Verif Verif.Syntax Verif.Lexer

/-- build/parse.y:34-55 `%union` (`yySymType`). -/
structure Val where
  tok : Bytes := []
  str : Bytes := []
  pos : Pos := {}
  triple : Bool := false
  expr : Expr := .nil
  exprs : List Expr := []
  loadargs : List (IdentN × IdentN) := []
  comma : Pos := {}
  last : Bool := false
deriving Inhabited

/-- The value of a token (`yyVAL = yyrcvr.lval`, parse.y.go:904). -/
def Val.ofTok (t : Tok) : Val := { tok := t.tok, str := t.str, pos := t.pos, triple := t.triple }

/-! ## Helper functions of parse.y -/

/-- build/parse.y:1062-1070 `unary`. -/
def mkUnary (pos : Pos) (op : Bytes) (x : Expr) : Expr := .unary {} pos op x

/-- build/parse.y:1078-1079: the operators of assignments. -/
def isAssignOp (op : Bytes) : Bool :=
  op == b!"=" || op == b!"+=" || op == b!"-=" || op == b!"*=" || op == b!"/=" || op == b!"//=" || op == b!"%=" || op == b!"|="

/-- build/parse.y:1072-1096 `binary`. -/
def mkBinary (x : Expr) (pos : Pos) (op : Bytes) (y : Expr) : Expr :=
  let lb := decide (x.endPos.line < y.startPos.line)
  if isAssignOp op then .assign {} x pos op lb y else .binary {} x pos op lb y

/-- build/parse.y:1098-1104 `typed` (the type assertion fails for anything but an identifier: nil) -/
def mkTyped : Expr → Expr → Expr
  | .ident n, y => .typedIdent {} n y
  | _, _ => .nil

/-- build/parse.y:1106-1129 `isSimpleExpression`. -/
def isSimple : Expr → Bool
  | .literal .. | .string _ | .ident _ => true
  | .unary _ _ _ (.literal ..) => true
  | .unary _ _ _ (.ident _) => true
  | .list _ _ l _ _ => l.isEmpty
  | .tuple _ _ _ l _ _ _ => l.isEmpty
  | .dict _ _ l _ _ => l.isEmpty
  | .set _ _ l _ _ => l.isEmpty
  | _ => false

/-- build/parse.y:1171-1182: the loop of `forceCompact` -/
def compactLoop : Nat → List Expr → Option Nat
  | line, [] => some line
  | line, x :: l =>
    if x.startPos.line ≠ line then none
    else if isSimple x then compactLoop x.endPos.line l else none

/-- build/parse.y:1164-1184 `forceCompact`. -/
def forceCompact (start : Pos) (l : List Expr) (end_ : Pos) : Bool :=
  if l.length ≤ 1 then false
  else match compactLoop start.line l with
    | none => false
    | some line => end_.line == line

/-- build/parse.y:1186-1203 `forceMultiLine`. -/
def forceMultiLine (start : Pos) (l : List Expr) (end_ : Pos) : Bool :=
  match l with
  | [] => start.line != end_.line
  | [x] => start.line != x.startPos.line || end_.line != x.endPos.line
  | _ => false

/-- build/parse.y:1212-1220: the loop of `forceMultiLineComprehension` -/
def comprLoop : Nat → List Expr → Nat → Bool
  | prev, [], end_ => prev != end_
  | prev, c :: l, end_ => prev != c.startPos.line || comprLoop c.endPos.line l end_

/-- build/parse.y:1205-1221 `forceMultiLineComprehension`. -/
def forceMultiLineCompr (start : Pos) (x : Expr) (clauses : List Expr) (end_ : Pos) : Bool :=
  start.line != x.startPos.line || comprLoop x.endPos.line clauses end_.line

/-- build/syntax.go `CommentBlock` -/
def isCommentBlock : Expr → Bool
  | .commentBlock .. => true
  | _ => false

/-- `x.Comment().Before = c` (build/syntax.go:76-83) -/
def setBefore (c : List Comment) (x : Expr) : Expr := x.setComments { x.comments with before := c }
/-- `x.Comment().After = c` (build/syntax.go:76-83) -/
def setAfter (c : List Comment) (x : Expr) : Expr := x.setComments { x.comments with after := c }

/-- change the last element (`$<lastStmt>$` points to it) (build/parse.y:54) -/
def modLast (f : Expr → Expr) : List Expr → List Expr
  | [] => []
  | [x] => [f x]
  | x :: l => x :: modLast f l

/-- build/parse.y:1266-1284 `extractDedentedComment`: the After comments that stay and those that go. -/
def splitDedented (indentation : Nat) : List Comment → Option (List Comment × List Comment)
  | [] => none
  | c :: l =>
    if c.start.lineRune > 0 ∧ c.start.lineRune < indentation then some ([], c :: l)
    else (splitDedented indentation l).map fun (a, b) => (c :: a, b)

/-- build/parse.y:1246-1261: the loop of `extractTrailingComments` over the statements from the last non-comment one on (`first`: this
is the first of them). Result: the new tail of the body and the extracted comment blocks. -/
def extractLoop (indentation : Nat) (first : Bool) : List Expr → List Expr × List Expr
  | [] => ([], [])
  | s :: l =>
    match splitDedented indentation s.comments.after with
    | some (stay, go) =>
      let cb : Expr := .commentBlock { after := go } ((go.headD ⟨{}, []⟩).start)
      (if !first && stay.isEmpty then [] else [setAfter stay s], cb :: l)
    | none =>
      let (b, c) := extractLoop indentation false l
      (s :: b, c)

/-- the statements before the last one that is not a comment block, and the rest; `none` if all are comment blocks
(build/parse.y:1235-1244) -/
def splitAtLastStmt : List Expr → Option (List Expr × List Expr)
  | [] => none
  | x :: l =>
    match splitAtLastStmt l with
    | some (a, b) => some (x :: a, b)
    | none => if isCommentBlock x then none else some ([], x :: l)

/-- build/parse.y:1227-1264: `extractTrailingComments` on a body. -/
def extractBody (body : List Expr) : List Expr × List Expr :=
  match body with
  | [] => ([], [])
  | x :: _ =>
    match splitAtLastStmt body with
    | none => (body, [])
    | some (a, b) =>
      let (b', cbs) := extractLoop x.startPos.lineRune true b
      (a ++ b', cbs)

/-- build/parse.y:1227-1306: `extractTrailingComments` with `getLastBody`: the changed statement and the extracted comment blocks. -/
def extractTrailing : Nat → Expr → Expr × List Expr
  | 0, s => (s, [])
  | f + 1, s =>
    match s with
    | .defS c sp n ps body cp fc fm t => let (b, cb) := extractBody body; (.defS c sp n ps b cp fc fm t, cb)
    | .forS c fp vs x body => let (b, cb) := extractBody body; (.forS c fp vs x b, cb)
    | .ifS c ip co t ep fa =>
      match fa with
      | [] => let (b, cb) := extractBody t; (.ifS c ip co b ep [], cb)
      | [.ifS c2 ip2 co2 t2 ep2 fa2] =>
        let (n, cb) := extractTrailing f (.ifS c2 ip2 co2 t2 ep2 fa2)
        (.ifS c ip co t ep [n], cb)
      | fa => let (b, cb) := extractBody fa; (.ifS c ip co t ep b, cb)
    | s => (s, [])

/-- number of nested else branches: enough fuel for `extractTrailing` and `setElse` (no counterpart in Go) -/
def chainLength : Expr → Nat
  | .ifS _ _ _ _ _ [x] => chainLength x + 1
  | _ => 1

/-- build/parse.y:406-421 and 427-436: set the else branch of the innermost `if` of an elif chain; `none`: the type assertion fails -/
def setElse : Nat → Pos → List Expr → Expr → Option Expr
  | 0, _, _, _ => none
  | f + 1, p, new, .ifS c ip co t ep fa =>
    match fa with
    | [x] => (setElse f p new x).map fun x' => .ifS c ip co t ep [x']
    | _ => some (.ifS c ip co t ⟨{}, p⟩ new)
  | _ + 1, _, _, _ => none

/-- build/parse.y:806-819 and 973-986: append to an unparenthesised tuple. -/
def tupleAppend (x y : Expr) : Expr :=
  match x with
  | .tuple c true s l e fc fm => .tuple c true s (l ++ [y]) e fc fm
  | x => .tuple {} true {} [x, y] {} true false

/-- build/parse.y:693-723 `load_argument` of a string: the position of the name -/
def loadNamePos (s : StringN) : Pos :=
  let p := s.start.add b!"'"
  if s.triple then p.add b!"''" else p

/-- the string of a `string` value (Go keeps it in a field of its own) (build/parse.y:46) -/
def asString : Expr → StringN
  | .string n => n
  | _ => { value := [] }

/-- `*$1.(*Ident)` (build/parse.y:48) -/
def asIdent : Expr → IdentN
  | .ident n => n
  | _ => { name := [] }

/-- build/parse.y:257-268, 316-328: add a comment to the last statement, or start a comment block. -/
def addComment (v : Val) (pos : Pos) (tok : Bytes) : Val :=
  let c : Comment := ⟨pos, tok⟩
  let l := if v.last then v.exprs else v.exprs ++ [.commentBlock {} pos]
  { v with exprs := modLast (fun x => setAfter (x.comments.after ++ [c]) x) l, last := true }

/-- change the first element (build/parse.y:54) -/
def modHead (f : Expr → Expr) : List Expr → List Expr
  | [] => []
  | x :: l => f x :: l

/-- build/parse.y:280-309: rule `stmts: stmts stmt`. -/
def addStmt (v1 v2 : Val) : Val :=
  if v1.last then
    match v1.exprs.getLast? with
    | none => { v1 with exprs := v1.exprs ++ v2.exprs, last := v2.last }
    | some x =>
      if isCommentBlock x then
        { v1 with exprs := v1.exprs.dropLast ++ modHead (setBefore x.comments.after) v2.exprs, last := v2.last }
      else
        { v1 with exprs := modLast (setAfter []) v1.exprs ++ modHead (setBefore x.comments.after) v2.exprs, last := v2.last }
  else { v1 with exprs := v1.exprs ++ v2.exprs, last := v2.last }

/-- build/parse.y:223-243: rule `suite: '\n' comments _INDENT stmts _UNINDENT`. -/
def mkSuite (v1 v2 v4 : Val) : Option Val :=
  match v2.exprs.getLast? with
  | none => some { v1 with exprs := v4.exprs, last := v4.last }
  | some cb =>
    match v4.exprs, cb.comments.after.getLast? with
    | s :: l, some c =>
      if (s.startPos.line : Int) - c.start.line = 1 then
        some { v1 with exprs := v2.exprs.dropLast ++ (setBefore cb.comments.after s :: l), last := v4.last }
      else some { v1 with exprs := v2.exprs ++ v4.exprs, last := v4.last }
    | _, _ => none

/-! ## Semantic actions -/

/-- build/parse.y:216-499: actions of rules 1-39 (`a1`.. are `$1`..). -/
def semStmt (r : Nat) (a1 a2 a3 a4 a5 a6 : Val) : Option Val :=
  match r with
  | 1 => some a1
  | 2 => mkSuite a1 a2 a4
  | 7 => some (addComment a1 a2.pos a2.tok)
  | 8 => some { a1 with last := false }
  | 10 => some (addStmt a1 a2)
  | 11 => some { a1 with last := false }
  | 12 => some (addComment a1 a2.pos a2.tok)
  | 13 => some { a1 with last := true }
  | 14 =>
    let (s, cbs) := extractTrailing (chainLength a1.expr) a1.expr
    some { a1 with exprs := s :: cbs, last := cbs.isEmpty || a1.last }
  | 15 => some { a1 with expr := .defS {} a1.pos a2.tok a4.exprs [] {} (forceCompact a3.pos a4.exprs a5.pos) (forceMultiLine a3.pos a4.exprs a5.pos) .nil }
  | 17 => match a1.expr with
    | .defS c sp n ps b cp fc fm _ => some { a1 with expr := .defS c sp n ps b cp fc fm a3.expr }
    | _ => none
  | 18 => match a1.expr with
    | .defS c sp n ps _ _ fc fm t => some { a1 with expr := .defS c sp n ps a3.exprs a2.pos fc fm t, last := a3.last }
    | _ => none
  | 19 => some { a1 with expr := .forS {} a1.pos a2.expr a4.expr a6.exprs, last := a6.last }
  | 21 => some { a1 with expr := .ifS {} a1.pos a2.expr a4.exprs {} [], last := a4.last }
  | 22 => (setElse (chainLength a1.expr) a2.pos [.ifS {} a2.pos a3.expr a5.exprs {} []] a1.expr).map fun e =>
      { a1 with expr := e, last := a5.last }
  | 24 => (setElse (chainLength a1.expr) a2.pos a4.exprs a1.expr).map fun e => { a1 with expr := e, last := a4.last }
  | 27 => some { a1 with exprs := a1.expr :: a2.exprs, last := true }
  | 29 => some { a1 with exprs := a1.exprs ++ [a3.expr] }
  | 31 => some { a1 with expr := .returnS {} a1.pos a2.expr }
  | 32 => some { a1 with expr := .returnS {} a1.pos .nil }
  | 33 => some { a1 with expr := mkBinary a1.expr a2.pos a2.tok a3.expr }
  | 34 => some { a1 with expr := mkBinary a1.expr a2.pos a2.tok a3.expr }
  | 35 => some { a1 with expr := .branch {} a1.tok a1.pos }
  | 36 => some { a1 with expr := .branch {} a1.tok a1.pos }
  | 37 => some { a1 with expr := .branch {} a1.tok a1.pos }
  | _ => some a1

/-- build/parse.y:501-681: actions of rules 40-62 (primary expressions and arguments). -/
def semPrimary (r : Nat) (a1 a2 a3 a4 a5 a6 a7 a8 : Val) : Option Val :=
  match r with
  | 43 => some { a1 with expr := .dot {} a1.expr a2.pos a3.pos a3.tok }
  | 44 => some { a1 with expr := .load {} a1.pos (asString a4.expr) (a6.loadargs.map (·.1)) (a6.loadargs.map (·.2)) ⟨{}, a8.pos⟩ (a2.pos.line == a8.pos.line) }
  | 45 => some { a1 with expr := .call {} a1.expr a2.pos a3.exprs ⟨{}, a4.pos⟩ (forceCompact a2.pos a3.exprs a4.pos) (forceMultiLine a2.pos a3.exprs a4.pos) }
  | 46 => some { a1 with expr := .index {} a1.expr a2.pos a3.expr a4.pos }
  | 47 => some { a1 with expr := .slice {} a1.expr a2.pos a3.expr a4.pos a5.expr {} .nil a6.pos }
  | 48 => some { a1 with expr := .slice {} a1.expr a2.pos a3.expr a4.pos a5.expr a6.pos a7.expr a8.pos }
  | 49 => some { a1 with expr := .list {} a1.pos a2.exprs ⟨{}, a3.pos⟩ (forceMultiLine a1.pos a2.exprs a3.pos) }
  | 50 => some { a1 with expr := .compr {} false a1.pos a2.expr a3.exprs (forceMultiLineCompr a1.pos a2.expr a3.exprs a4.pos) ⟨{}, a4.pos⟩ }
  | 51 => some { a1 with expr := .compr {} true a1.pos a2.expr a3.exprs (forceMultiLineCompr a1.pos a2.expr a3.exprs a4.pos) ⟨{}, a4.pos⟩ }
  | 52 => some { a1 with expr := .dict {} a1.pos a2.exprs ⟨{}, a3.pos⟩ (forceMultiLine a1.pos a2.exprs a3.pos) }
  | 53 => some { a1 with expr := .set {} a1.pos a2.exprs ⟨{}, a4.pos⟩ (forceMultiLine a1.pos a2.exprs a4.pos) }
  | 54 =>
    match a2.exprs with
    | [x] =>
      if a2.comma.line = 0 then some { a1 with expr := .paren {} a1.pos x ⟨{}, a3.pos⟩ (forceMultiLine a1.pos [x] a3.pos) }
      else some { a1 with expr := .tuple {} false a1.pos [x] ⟨{}, a3.pos⟩ (forceCompact a1.pos [x] a3.pos) (forceMultiLine a1.pos [x] a3.pos) }
    | l => some { a1 with expr := .tuple {} false a1.pos l ⟨{}, a3.pos⟩ (forceCompact a1.pos l a3.pos) (forceMultiLine a1.pos l a3.pos) }
  | 55 => some { a1 with exprs := [] }
  | 56 => some a1
  | 57 => some { a1 with exprs := [a2.expr] }
  | 58 => some { a1 with exprs := a1.exprs ++ [a3.expr] }
  | 60 => some { a1 with expr := mkBinary a1.expr a2.pos a2.tok a3.expr }
  | 61 => some { a1 with expr := mkUnary a1.pos a1.tok a2.expr }
  | 62 => some { a1 with expr := mkUnary a1.pos a1.tok a2.expr }
  | _ => some a1

/-- build/parse.y:683-825: actions of rules 63-88 (load arguments, parameters, `expr`). -/
def semParam (r : Nat) (a1 a2 a3 a4 a5 : Val) : Option Val :=
  match r with
  | 63 => some a1
  | 64 => some { a1 with loadargs := a1.loadargs ++ a3.loadargs }
  | 65 =>
    let s := asString a1.expr
    some { a1 with loadargs := [({ namePos := loadNamePos s, name := s.value }, { namePos := loadNamePos s, name := s.value })] }
  | 66 =>
    let s := asString a3.expr
    some { a1 with loadargs := [({ namePos := loadNamePos s, name := s.value }, asIdent a1.expr)] }
  | 67 => some { a1 with exprs := [] }
  | 69 => some { a1 with exprs := [] }
  | 71 => some { a1 with exprs := [a1.expr] }
  | 72 => some { a1 with exprs := a1.exprs ++ [a3.expr] }
  | 73 => some { a1 with exprs := [a1.expr] }
  | 74 => some { a1 with exprs := a1.exprs ++ [a3.expr] }
  | 76 => some { a1 with expr := mkBinary a1.expr a2.pos a2.tok a3.expr }
  | 77 => some { a1 with expr := mkUnary a1.pos a1.tok a2.expr }
  | 78 => some { a1 with expr := mkUnary a1.pos a1.tok .nil }
  | 79 => some { a1 with expr := mkUnary a1.pos a1.tok a2.expr }
  | 81 => some { a1 with expr := mkTyped a1.expr a3.expr }
  | 82 => some { a1 with expr := mkBinary (mkTyped a1.expr a3.expr) a4.pos a4.tok a5.expr }
  | 83 => some { a1 with expr := mkUnary a1.pos a1.tok (mkTyped a2.expr a4.expr) }
  | 84 => some { a1 with expr := mkUnary a1.pos a1.tok (mkTyped a2.expr a4.expr) }
  | 86 => some { a1 with expr := tupleAppend a1.expr a3.expr }
  | 87 => some { a1 with expr := .nil }
  | _ => some a1

/-- build/parse.y:827-881: actions of rules 89-117 (`test`). -/
def semTest (r : Nat) (a1 a2 a3 a4 a5 : Val) : Option Val :=
  if r = 89 then some a1
  else if r = 90 then some { a1 with expr := .lambda {} a1.pos a2.exprs [a4.expr] }
  else if r ≤ 94 then some { a1 with expr := mkUnary a1.pos a1.tok a2.expr }
  else if r = 108 then some { a1 with expr := mkBinary a1.expr a2.pos b!"not in" a4.expr }
  else if r = 116 then
    match a3.expr with
    | .unary c o op x =>
      if op = b!"not" then some { a1 with expr := mkBinary a1.expr a2.pos b!"is not" x }
      else some { a1 with expr := mkBinary a1.expr a2.pos a2.tok (.unary c o op x) }
    | y => some { a1 with expr := mkBinary a1.expr a2.pos a2.tok y }
  else if r = 117 then some { a1 with expr := .cond {} a1.expr a2.pos a3.expr a4.pos a5.expr }
  else some { a1 with expr := mkBinary a1.expr a2.pos a2.tok a3.expr }

/-- build/parse.y:883-1056: actions of rules 118-148. -/
def semList (r : Nat) (a1 a2 a3 a4 : Val) : Option Val :=
  match r with
  | 118 => some { a1 with exprs := [a1.expr] }
  | 119 => some { a1 with exprs := a1.exprs ++ [a3.expr] }
  | 120 => some { a1 with expr := .nil }
  | 122 => some { a1 with exprs := [], comma := {} }
  | 123 => some { a1 with comma := a2.pos }
  | 124 => some { a1 with pos := {} }
  | 128 => some { a1 with pos := {} }
  | 130 => some { a1 with expr := .keyValue {} a1.expr a2.pos a3.expr }
  | 131 => some { a1 with exprs := [a1.expr] }
  | 132 => some { a1 with exprs := a1.exprs ++ [a3.expr] }
  | 133 => some { a1 with exprs := [] }
  | 137 => some { a1 with expr := tupleAppend a1.expr a3.expr }
  | 138 => some { a1 with expr := .string { start := a1.pos, value := a1.str, triple := a1.triple, endPos := a1.pos.add a1.tok, token := a1.tok } }
  | 139 => some { a1 with expr := .ident { namePos := a1.pos, name := a1.tok } }
  | 140 => some { a1 with expr := .literal {} a1.pos (a1.tok ++ b!"." ++ a3.tok) }
  | 141 => some { a1 with expr := .literal {} a1.pos (a1.tok ++ b!".") }
  | 142 => some { a1 with expr := .literal {} a1.pos (b!"." ++ a2.tok) }
  | 143 => some { a1 with expr := .literal {} a1.pos a1.tok }
  | 144 => some { a1 with expr := .forClause {} a1.pos a2.expr a3.pos a4.expr }
  | 145 => some { a1 with exprs := [a1.expr] }
  | 146 => some { a1 with exprs := a1.exprs ++ [.ifClause {} a2.pos a3.expr] }
  | 148 => some { a1 with exprs := a1.exprs ++ a2.exprs }
  | _ => some a1

/-- build/parse.y.go:1019-2090: the action of rule `r` on `$1`.. (`a`). -/
def sem (r : Nat) (a : List Val) : Option Val :=
  let g (i : Nat) : Val := a.getD i {}
  if r < 40 then semStmt r (g 0) (g 1) (g 2) (g 3) (g 4) (g 5)
  else if r < 63 then semPrimary r (g 0) (g 1) (g 2) (g 3) (g 4) (g 5) (g 6) (g 7)
  else if r < 89 then semParam r (g 0) (g 1) (g 2) (g 3) (g 4)
  else if r < 118 then semTest r (g 0) (g 1) (g 2) (g 3) (g 4)
  else semList r (g 0) (g 1) (g 2) (g 3)

/-! ## The machine -/

open Verif.LR

/-- the actions of the tables, build/parse.y.go -/
inductive Act where
  | shift (s : Nat)
  | reduce (r : Nat)
  | accept
  | err
deriving DecidableEq, Repr

/-- build/parse.y.go:807-840 `yylex1`: internal number of a token. -/
def tokNum (k : Kind) : Nat :=
  let t := if k = 0 then look yyTok1 0
    else if k < 127 then look yyTok1 k
    else if 57344 ≤ k ∧ k < 57344 + 38 then look yyTok2 (k - 57344)
    else 0
  if t = 0 then (look yyTok2 1).toNat else t.toNat

/-- build/parse.y.go:920-934: search in the exception table; `inside`: the block of the state has been found. -/
def exca : Nat → Nat → Bool → Nat → Nat → Int
  | 0, _, _, _, _ => 0
  | f + 1, xi, inside, s, t =>
    let a := look yyExca xi
    let b := look yyExca (xi + 1)
    if inside then
      if a < 0 ∨ a = (t : Int) then b else exca f (xi + 2) true s t
    else if a = -1 ∧ b = (s : Int) then exca f (xi + 2) true s t
    else exca f (xi + 2) false s t

/-- build/parse.y.go:912-941: default action of state `s` with lookahead `t` (internal number). -/
def defaultAct (s t : Nat) : Act :=
  let n := look yyDef s
  if n = -2 then
    let m := exca 10 0 false s t
    if m < 0 then .accept else if m = 0 then .err else .reduce m.toNat
  else if n = 0 then .err
  else .reduce n.toNat

/-- build/parse.y.go:888-941: the action of state `s` with lookahead `t`. -/
def action (s t : Nat) : Act :=
  let p := look yyPact s
  if p ≤ -1000 then defaultAct s t
  else
    let n := p + (t : Int)
    if n < 0 ∨ 1052 ≤ n then defaultAct s t
    else
      let m := (look yyAct n.toNat).toNat
      if look yyChk m = (t : Int) then .shift m else defaultAct s t

/-- build/parse.y.go:1005-1016: next state after reducing rule `r` on top of state `s`. -/
def goto_ (s r : Nat) : Nat :=
  let nt := look yyR1 r
  let g := (look yyPgo nt.toNat).toNat
  let j := g + s + 1
  if 1052 ≤ j then (look yyAct g).toNat
  else
    let st := (look yyAct j).toNat
    if look yyChk st = -nt then st else (look yyAct g).toNat

/-- A configuration: the stack (top first) and the tokens not yet shifted. (build/parse.y.go `yyParserImpl`) -/
structure Cfg where
  stack : List (Nat × Val)
  toks : List Tok
deriving Inhabited

/-- the results of a step of `yyParse`, build/parse.y.go -/
inductive Outcome where
  | next (c : Cfg)
  | done (v : Val)      -- rule 1 was reduced: `file` is set
  | error
deriving Inhabited

/-- internal number of the next token (an empty list behaves like the end marker of yacc, which the lexer never sends) (build/parse.y.go `yylex1`) -/
def lookahead (ts : List Tok) : Nat :=
  match ts with
  | [] => 1
  | t :: _ => tokNum t.kind

/-- One step of `yyParse` (build/parse.y.go:874-1019). -/
def step (c : Cfg) : Outcome :=
  match c.stack with
  | [] => .error
  | (s, _) :: _ =>
    match action s (lookahead c.toks) with
    | .shift n =>
      match c.toks with
      | [] => .error
      | t :: ts => .next ⟨(n, Val.ofTok t) :: c.stack, ts⟩
    | .reduce r =>
      let n := (look yyR2 r).toNat
      match sem r ((c.stack.take n).map (·.2)).reverse with
      | none => .error
      | some v =>
        if r = 1 then .done v
        else match c.stack.drop n with
          | [] => .error
          | (s', v') :: st => .next ⟨(goto_ s' r, v) :: (s', v') :: st, c.toks⟩
    | .accept => .error
    | .err => .error

/-- `n` steps of the machine: the statements of the file, `none` for an error or if `n` is too small (build/parse.y.go `Parse`) -/
def run : Nat → Cfg → Option (List Expr)
  | 0, _ => none
  | n + 1, c =>
    match step c with
    | .next c' => run n c'
    | .done v => some v.exprs
    | .error => none

/-- build/parse.y.go:846-886: the start of `yyParse` -/
def initCfg (ts : List Tok) : Cfg := ⟨[(0, {})], ts⟩

/-- `yyParse` accepts the tokens and builds the statements `l`. (build/parse.y.go `Parse`) -/
def ParsesTo (ts : List Tok) (l : List Expr) : Prop := ∃ n, run n (initCfg ts) = some l

end Verif.Parser
