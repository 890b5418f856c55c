import Verif.Basic
/-
Model of /repo/build/syntax.go: syntax tree nodes, positions, spans.

Simplifications: Go's pointers are values (no sharing). The embedded `Function.Comments` of `DefStmt`,
`LambdaExpr` and `ForStmt` (never set nor read by the code) is omitted. `Expr.file` carries the comments and
statements of a `File`; the structure `File` adds path and type, the `Pkg`, `Label`, `WorkspaceRoot` fields are omitted
where no modelled function reads them.
`End` nodes are structures stored in their parents, as in Go.
-/
namespace Verif.Syntax
open Verif

/-- build/syntax.go:29-33 `Position`. Line and rune numbers start at 1, so `⟨0,0,0⟩` is "no position". -/
structure Pos where
  line : Nat := 0
  lineRune : Nat := 0
  byte : Nat := 0
deriving DecidableEq, Repr, Inhabited

/-- Go `utf8.RuneCountInString` as used in `Position.add`, on valid or invalid input alike approximated by
counting the bytes that are not UTF-8 continuation bytes (exact on valid UTF-8). -/
def runeCount (s : Bytes) : Nat := (s.filter (fun b => !(0x80 ≤ b && b < 0xC0))).length

/-- build/syntax.go:36-45 `Position.add`. -/
def Pos.add (p : Pos) (s : Bytes) : Pos :=
  let n := s.count 10
  if n > 0 then
    ⟨p.line + n, 1 + runeCount ((s.reverse.takeWhile (· != 10)).reverse), p.byte + s.length⟩
  else ⟨p.line, p.lineRune + runeCount s, p.byte + s.length⟩

/-- build/syntax.go:65-68 `Comment`. -/
structure Comment where
  start : Pos := {}
  token : Bytes
deriving DecidableEq, Repr, Inhabited

/-- build/syntax.go:76-83 `Comments`. -/
structure Comments where
  before : List Comment := []
  suffix : List Comment := []
  after : List Comment := []
deriving DecidableEq, Repr, Inhabited

/-- build/syntax.go `End`: the closing bracket of a node, which can carry comments. -/
structure EndN where
  comments : Comments := {}
  pos : Pos := {}
deriving DecidableEq, Repr, Inhabited

/-- build/syntax.go `Ident`. -/
structure IdentN where
  comments : Comments := {}
  namePos : Pos := {}
  name : Bytes
deriving DecidableEq, Repr, Inhabited

/-- build/syntax.go `StringExpr`. -/
structure StringN where
  comments : Comments := {}
  start : Pos := {}
  value : Bytes
  triple : Bool := false
  endPos : Pos := {}
  token : Bytes := []
deriving DecidableEq, Repr, Inhabited

/-- build/syntax.go: the node kinds. `Expr.nil` is Go's nil interface value. -/
inductive Expr where
  | nil
  | commentBlock (c : Comments) (start : Pos)
  | ident (n : IdentN)
  | typedIdent (c : Comments) (id : IdentN) (type : Expr)
  | branch (c : Comments) (token : Bytes) (pos : Pos)
  | literal (c : Comments) (start : Pos) (token : Bytes)
  | string (n : StringN)
  | call (c : Comments) (x : Expr) (listStart : Pos) (list : List Expr) (e : EndN) (forceCompact forceMultiLine : Bool)
  | dot (c : Comments) (x : Expr) (dotPos namePos : Pos) (name : Bytes)
  | compr (c : Comments) (curly : Bool) (lbrack : Pos) (body : Expr) (clauses : List Expr) (forceMultiLine : Bool) (e : EndN)
  | forClause (c : Comments) (forPos : Pos) (vars : Expr) (inPos : Pos) (x : Expr)
  | ifClause (c : Comments) (ifPos : Pos) (cond : Expr)
  | keyValue (c : Comments) (key : Expr) (colon : Pos) (value : Expr)
  | dict (c : Comments) (start : Pos) (list : List Expr) (e : EndN) (forceMultiLine : Bool)
  | list (c : Comments) (start : Pos) (list : List Expr) (e : EndN) (forceMultiLine : Bool)
  | set (c : Comments) (start : Pos) (list : List Expr) (e : EndN) (forceMultiLine : Bool)
  | tuple (c : Comments) (noBrackets : Bool) (start : Pos) (list : List Expr) (e : EndN) (forceCompact forceMultiLine : Bool)
  | unary (c : Comments) (opStart : Pos) (op : Bytes) (x : Expr)
  | binary (c : Comments) (x : Expr) (opStart : Pos) (op : Bytes) (lineBreak : Bool) (y : Expr)
  | assign (c : Comments) (lhs : Expr) (opPos : Pos) (op : Bytes) (lineBreak : Bool) (rhs : Expr)
  | paren (c : Comments) (start : Pos) (x : Expr) (e : EndN) (forceMultiLine : Bool)
  | slice (c : Comments) (x : Expr) (sliceStart : Pos) (from_ : Expr) (firstColon : Pos) (to_ : Expr) (secondColon : Pos) (step : Expr) (endPos : Pos)
  | index (c : Comments) (x : Expr) (indexStart : Pos) (y : Expr) (endPos : Pos)
  | lambda (c : Comments) (startPos : Pos) (params : List Expr) (body : List Expr)
  | cond (c : Comments) (then_ : Expr) (ifStart : Pos) (test : Expr) (elseStart : Pos) (else_ : Expr)
  | load (c : Comments) (loadPos : Pos) (module_ : StringN) (from_ to_ : List IdentN) (rparen : EndN) (forceCompact : Bool)
  | defS (c : Comments) (startPos : Pos) (name : Bytes) (params : List Expr) (body : List Expr) (colonPos : Pos) (forceCompact forceMultiLine : Bool) (type : Expr)
  | returnS (c : Comments) (pos : Pos) (result : Expr)
  | forS (c : Comments) (forPos : Pos) (vars : Expr) (x : Expr) (body : List Expr)
  | ifS (c : Comments) (ifPos : Pos) (cond : Expr) (true_ : List Expr) (elsePos : EndN) (false_ : List Expr)
  | file (c : Comments) (stmts : List Expr)
deriving Repr, Inhabited

namespace Expr

/-- `v.Comment()`. (Calling it on a nil interface panics in Go; `nil` has no comments here and no modelled code
asks.) (build/syntax.go:89-91) -/
def comments : Expr → Comments
  | nil => {}
  | commentBlock c .. | typedIdent c .. | branch c .. | literal c .. | call c .. | dot c .. | compr c ..
  | forClause c .. | ifClause c .. | keyValue c .. | dict c .. | list c .. | set c .. | tuple c .. | unary c ..
  | binary c .. | assign c .. | paren c .. | slice c .. | index c .. | lambda c .. | cond c .. | load c ..
  | defS c .. | returnS c .. | forS c .. | ifS c .. | file c .. => c
  | ident n => n.comments
  | string n => n.comments

/-- `*v.Comment() = f(*v.Comment())` (build/syntax.go:89-91) -/
def setComments (c' : Comments) : Expr → Expr
  | nil => nil
  | commentBlock _ s => commentBlock c' s
  | ident n => ident { n with comments := c' }
  | typedIdent _ i t => typedIdent c' i t
  | branch _ t p => branch c' t p
  | literal _ s t => literal c' s t
  | string n => string { n with comments := c' }
  | call _ x ls l e a b => call c' x ls l e a b
  | dot _ x d n s => dot c' x d n s
  | compr _ cu l b cl f e => compr c' cu l b cl f e
  | forClause _ f v i x => forClause c' f v i x
  | ifClause _ i x => ifClause c' i x
  | keyValue _ k p v => keyValue c' k p v
  | dict _ s l e f => dict c' s l e f
  | list _ s l e f => list c' s l e f
  | set _ s l e f => set c' s l e f
  | tuple _ n s l e a b => tuple c' n s l e a b
  | unary _ o op x => unary c' o op x
  | binary _ x o op l y => binary c' x o op l y
  | assign _ x o op l y => assign c' x o op l y
  | paren _ s x e f => paren c' s x e f
  | slice _ x s f c1 t c2 st e => slice c' x s f c1 t c2 st e
  | index _ x s y e => index c' x s y e
  | lambda _ s p b => lambda c' s p b
  | cond _ t i te el e => cond c' t i te el e
  | load _ l m f t r fc => load c' l m f t r fc
  | defS _ s n p b cp a d t => defS c' s n p b cp a d t
  | returnS _ p r => returnS c' p r
  | forS _ f v x b => forS c' f v x b
  | ifS _ i co t e f => ifS c' i co t e f
  | file _ s => file c' s

/-- a nil interface (build/syntax.go:48-62) -/
def isNil : Expr → Bool
  | nil => true
  | _ => false

end Expr

/-- build/syntax.go:105-113 `File` (without the package bookkeeping fields). -/
inductive FileType where
  | default | build | workspace | bzl | module
deriving DecidableEq, Repr, Inhabited

/-- build/syntax.go:105-113 -/
structure File where
  path : Bytes := []
  type : FileType := .default
  comments : Comments := {}
  stmts : List Expr := []
deriving Inhabited, Repr

/-- A `*File` used as an `Expr`. (build/syntax.go:105-113) -/
def File.toExpr (f : File) : Expr := .file f.comments f.stmts

/-- The end of `pos.add(")")`: bracket ends are one byte long. (build/syntax.go:278-288) -/
def EndN.endPos (e : EndN) : Pos := e.pos.add b!")"

mutual
/-- build/syntax.go: start of `v.Span()`. A nil node has no span (Go would panic). -/
def Expr.startPos : Expr → Pos
  | .nil => {}
  | .commentBlock _ s => s
  | .ident n => n.namePos
  | .typedIdent _ i _ => i.namePos
  | .branch _ _ p => p
  | .literal _ s _ => s
  | .string n => n.start
  | .call _ x .. => x.startPos
  | .dot _ x .. => x.startPos
  | .compr _ _ l .. => l
  | .forClause _ f .. => f
  | .ifClause _ i _ => i
  | .keyValue _ k .. => k.startPos
  | .dict _ s .. => s
  | .list _ s .. => s
  | .set _ s .. => s
  | .tuple _ nb s l .. => if nb then startPosHead l else s
  | .unary _ o .. => o
  | .binary _ x .. => x.startPos
  | .assign _ x .. => x.startPos
  | .paren _ s .. => s
  | .slice _ x .. => x.startPos
  | .index _ x .. => x.startPos
  | .lambda _ s .. => s
  | .cond _ t .. => t.startPos
  | .load _ l .. => l
  | .defS _ s .. => s
  | .returnS _ p _ => p
  | .forS _ f .. => f
  | .ifS _ i .. => i
  | .file _ l => if l.isEmpty then ⟨1, 1, 0⟩ else {}
/-- start of the first element (Go indexes element 0, and panics on an empty list) (the `Span` methods of build/syntax.go) -/
def startPosHead : List Expr → Pos
  | [] => {}
  | x :: _ => x.startPos
end

mutual
/-- build/syntax.go: end of `v.Span()`. -/
def Expr.endPos : Expr → Pos
  | .nil => {}
  | .commentBlock _ s => s
  | .ident n => n.namePos.add n.name
  | .typedIdent _ _ t => t.endPos
  | .branch _ t p => p.add t
  | .literal _ s t => s.add t
  | .string n => n.endPos
  | .call _ _ _ _ e _ _ => e.endPos
  | .dot _ _ _ np n => np.add n
  | .compr _ _ _ _ _ _ e => e.endPos
  | .forClause _ _ _ _ x => x.endPos
  | .ifClause _ _ x => x.endPos
  | .keyValue _ _ _ v => v.endPos
  | .dict _ _ _ e _ => e.endPos
  | .list _ _ _ e _ => e.endPos
  | .set _ _ _ e _ => e.endPos
  | .tuple _ nb _ l e _ _ => if nb then endPosLast l else e.endPos
  | .unary _ o _ x => if x.isNil then o else x.endPos
  | .binary _ _ _ _ _ y => y.endPos
  | .assign _ _ _ _ _ y => y.endPos
  | .paren _ _ _ e _ => e.endPos
  | .slice _ _ _ _ _ _ _ _ e => e.add b!"]"
  | .index _ _ _ _ e => e.add b!"]"
  | .lambda _ _ _ b => endPosLast b
  | .cond _ _ _ _ _ e => e.endPos
  | .load _ _ _ _ _ r _ => r.endPos
  | .defS _ _ _ _ b .. => endPosLast b
  | .returnS _ p r => if r.isNil then p.add b!"return" else r.endPos
  | .forS _ _ _ _ b => stmtsEnd b
  | .ifS _ _ _ t _ f => if f.isEmpty then stmtsEnd t else stmtsEnd f
  | .file _ l => if l.isEmpty then ⟨1, 1, 0⟩ else stmtsEnd l
/-- end of the last element (Go indexes the last element, and panics on an empty list) (the `Span` methods of build/syntax.go) -/
def endPosLast : List Expr → Pos
  | [] => {}
  | [x] => x.endPos
  | _ :: l => endPosLast l
/-- build/syntax.go:94-102 `stmtsEnd`: end of the last non-nil statement. -/
def stmtsEnd : List Expr → Pos
  | [] => {}
  | x :: l => if l.all (·.isNil) then (if x.isNil then {} else x.endPos) else stmtsEnd l
end

end Verif.Syntax
