import Verif.Model.Parser
/-
Model of comment assignment (/repo/build/lex.go:690-905): `order`, `assignSuffixComments`, `assignLineComments`.

Go collects pointers to all nodes in preorder and in postorder and then hands the comments out along these lists. The
model hands them out during a traversal of the tree in the same order: preorder for line comments, reverse postorder for suffix
comments. Each node occurs once in each list, so this is the same.
-/
namespace Verif.Comm
open Verif Verif.Syntax

/-- build/lex.go:862-865: the inner loop of `assignSuffixComments` for a node that ends at byte `e`: the comments taken (last one
first, as appended) and those left. `l` holds the comments not yet assigned, the last one first. -/
def takeSuffix (e : Nat) : List Comment → List Comment × List Comment
  | [] => ([], [])
  | c :: l =>
    if e ≤ c.start.byte then
      let (a, b) := takeSuffix e l
      (c :: a, b)
    else ([], c :: l)

/-- build/lex.go:860-874 for one node: take comments and put them in the right order (lines 869-874). -/
def sufC (c : Comments) (e : Pos) (l : List Comment) : Comments × List Comment :=
  let (a, b) := takeSuffix e.byte l
  ({ c with suffix := (c.suffix ++ a).reverse }, b)

/-- build/lex.go:860-874 for the end of a list -/
def sufEnd (e : EndN) (l : List Comment) : EndN × List Comment :=
  let (c, l) := sufC e.comments e.endPos l
  ({ e with comments := c }, l)

/-- build/lex.go:860-874 for an identifier -/
def sufIdent (n : IdentN) (l : List Comment) : IdentN × List Comment :=
  let (c, l) := sufC n.comments (n.namePos.add n.name) l
  ({ n with comments := c }, l)

/-- build/lex.go:860-874 for a string -/
def sufString (n : StringN) (l : List Comment) : StringN × List Comment :=
  let (c, l) := sufC n.comments n.endPos l
  ({ n with comments := c }, l)

/-- build/lex.go:724-728 in reverse: the names of a load statement -/
def sufLoad : List IdentN → List IdentN → List Comment → List IdentN × List IdentN × List Comment
  | f :: fs, t :: ts, l =>
    let (fs', ts', l) := sufLoad fs ts l
    let (f', l) := sufIdent f l
    let (t', l) := sufIdent t l
    (f' :: fs', t' :: ts', l)
  | fs, ts, l => (fs, ts, l)

mutual
/-- build/lex.go:698-838 and 848-874: a node takes its suffix comments (unless it is a file, a block statement or a comment block,
lines 855-858), then its children from the last to the first. -/
def sufE (x : Expr) (l : List Comment) : Expr × List Comment :=
  match x with
  | .nil => (.nil, l)
  | .commentBlock c s => (.commentBlock { c with suffix := c.suffix.reverse } s, l)
  | .ident n => let (n, l) := sufIdent n l; (.ident n, l)
  | .typedIdent c i t =>
    let (c, l) := sufC c (Expr.endPos (.typedIdent c i t)) l
    let (t, l) := sufE t l
    (.typedIdent c i t, l)
  | .branch c t p => let (c, l) := sufC c (Expr.endPos (.branch c t p)) l; (.branch c t p, l)
  | .literal c s t => let (c, l) := sufC c (Expr.endPos (.literal c s t)) l; (.literal c s t, l)
  | .string n => let (n, l) := sufString n l; (.string n, l)
  | .call c x ls xs e a b =>
    let (c, l) := sufC c (Expr.endPos (.call c x ls xs e a b)) l
    let (e, l) := sufEnd e l
    let (xs, l) := sufL xs l
    let (x, l) := sufE x l
    (.call c x ls xs e a b, l)
  | .dot c x d n s =>
    let (c, l) := sufC c (Expr.endPos (.dot c x d n s)) l
    let (x, l) := sufE x l
    (.dot c x d n s, l)
  | .compr c cu lb body cl f e =>
    let (c, l) := sufC c (Expr.endPos (.compr c cu lb body cl f e)) l
    let (e, l) := sufEnd e l
    let (cl, l) := sufL cl l
    let (body, l) := sufE body l
    (.compr c cu lb body cl f e, l)
  | .forClause c f v i x =>
    let (c, l) := sufC c (Expr.endPos (.forClause c f v i x)) l
    let (x, l) := sufE x l
    let (v, l) := sufE v l
    (.forClause c f v i x, l)
  | .ifClause c i x =>
    let (c, l) := sufC c (Expr.endPos (.ifClause c i x)) l
    let (x, l) := sufE x l
    (.ifClause c i x, l)
  | .keyValue c k p v =>
    let (c, l) := sufC c (Expr.endPos (.keyValue c k p v)) l
    let (v, l) := sufE v l
    let (k, l) := sufE k l
    (.keyValue c k p v, l)
  | .dict c s xs e f =>
    let (c, l) := sufC c (Expr.endPos (.dict c s xs e f)) l
    let (e, l) := sufEnd e l
    let (xs, l) := sufL xs l
    (.dict c s xs e f, l)
  | .list c s xs e f =>
    let (c, l) := sufC c (Expr.endPos (.list c s xs e f)) l
    let (e, l) := sufEnd e l
    let (xs, l) := sufL xs l
    (.list c s xs e f, l)
  | .set c s xs e f =>
    let (c, l) := sufC c (Expr.endPos (.set c s xs e f)) l
    let (e, l) := sufEnd e l
    let (xs, l) := sufL xs l
    (.set c s xs e f, l)
  | .tuple c nb s xs e a b =>
    let (c, l) := sufC c (Expr.endPos (.tuple c nb s xs e a b)) l
    let (e, l) := if nb then (e, l) else sufEnd e l
    let (xs, l) := sufL xs l
    (.tuple c nb s xs e a b, l)
  | .unary c o op x =>
    let (c, l) := sufC c (Expr.endPos (.unary c o op x)) l
    let (x, l) := sufE x l
    (.unary c o op x, l)
  | .binary c x o op lb y =>
    let (c, l) := sufC c (Expr.endPos (.binary c x o op lb y)) l
    let (y, l) := sufE y l
    let (x, l) := sufE x l
    (.binary c x o op lb y, l)
  | .assign c x o op lb y =>
    let (c, l) := sufC c (Expr.endPos (.assign c x o op lb y)) l
    let (y, l) := sufE y l
    let (x, l) := sufE x l
    (.assign c x o op lb y, l)
  | .paren c s x e f =>
    let (c, l) := sufC c (Expr.endPos (.paren c s x e f)) l
    let (e, l) := sufEnd e l
    let (x, l) := sufE x l
    (.paren c s x e f, l)
  | .slice c x s f c1 t c2 st e =>
    let (c, l) := sufC c (Expr.endPos (.slice c x s f c1 t c2 st e)) l
    let (st, l) := sufE st l
    let (t, l) := sufE t l
    let (f, l) := sufE f l
    let (x, l) := sufE x l
    (.slice c x s f c1 t c2 st e, l)
  | .index c x s y e =>
    let (c, l) := sufC c (Expr.endPos (.index c x s y e)) l
    let (y, l) := sufE y l
    let (x, l) := sufE x l
    (.index c x s y e, l)
  | .lambda c s ps b =>
    let (c, l) := sufC c (Expr.endPos (.lambda c s ps b)) l
    let (b, l) := sufL b l
    let (ps, l) := sufL ps l
    (.lambda c s ps b, l)
  | .cond c t i te el e =>
    let (c, l) := sufC c (Expr.endPos (.cond c t i te el e)) l
    let (e, l) := sufE e l
    let (te, l) := sufE te l
    let (t, l) := sufE t l
    (.cond c t i te el e, l)
  | .load c lp m fs ts r fc =>
    let (c, l) := sufC c (Expr.endPos (.load c lp m fs ts r fc)) l
    let (r, l) := sufEnd r l
    let (fs, ts, l) := sufLoad fs ts l
    let (m, l) := sufString m l
    (.load c lp m fs ts r fc, l)
  | .returnS c p r =>
    let (c, l) := sufC c (Expr.endPos (.returnS c p r)) l
    let (r, l) := sufE r l
    (.returnS c p r, l)
  | .defS c s n ps b cp f1 f2 t =>
    let (b, l) := sufL b l
    let (ps, l) := sufL ps l
    (.defS { c with suffix := c.suffix.reverse } s n ps b cp f1 f2 t, l)
  | .forS c f v x b =>
    let (b, l) := sufL b l
    let (x, l) := sufE x l
    let (v, l) := sufE v l
    (.forS { c with suffix := c.suffix.reverse } f v x b, l)
  | .ifS c i co t ep fa =>
    let (fa', l) := sufL fa l
    let (ep, l) := if fa.isEmpty then (ep, l) else sufEnd ep l
    let (t, l) := sufL t l
    let (co, l) := sufE co l
    (.ifS { c with suffix := c.suffix.reverse } i co t ep fa', l)
  | .file c s =>
    let (s, l) := sufL s l
    (.file { c with suffix := c.suffix.reverse } s, l)
/-- the elements of a list, from the last to the first (build/lex.go:698-838) -/
def sufL (xs : List Expr) (l : List Comment) : List Expr × List Comment :=
  match xs with
  | [] => ([], l)
  | x :: xs =>
    let (xs, l) := sufL xs l
    let (x, l) := sufE x l
    (x :: xs, l)
end

/-- build/lex.go:884-888: the inner loop of `assignLineComments` for a node that starts at byte `s`. -/
def takeLine (s : Nat) : List Comment → List Comment × List Comment
  | [] => ([], [])
  | c :: l =>
    if c.start.byte ≤ s then
      let (a, b) := takeLine s l
      (c :: a, b)
    else ([], c :: l)

/-- insertion into a list sorted by byte position, after equal elements (build/lex.go:841-898) -/
def insertByte (c : Comment) : List Comment → List Comment
  | [] => [c]
  | d :: l => if c.start.byte < d.start.byte then c :: d :: l else d :: insertByte c l

/-- `sort.SliceStable` by byte position (build/lex.go:891-893) -/
def sortByte (l : List Comment) : List Comment := l.foldl (fun acc c => insertByte c acc) []

/-- build/lex.go:881-894 for one node -/
def linC (c : Comments) (s : Pos) (l : List Comment) : Comments × List Comment :=
  let (a, b) := takeLine s.byte l
  ({ c with before := sortByte (c.before ++ a) }, b)

/-- build/lex.go:841-898: the line comments before the end of a list -/
def linEnd (e : EndN) (l : List Comment) : EndN × List Comment :=
  let (c, l) := linC e.comments e.pos l
  ({ e with comments := c }, l)

/-- build/lex.go:841-898: the line comments before an identifier -/
def linIdent (n : IdentN) (l : List Comment) : IdentN × List Comment :=
  let (c, l) := linC n.comments n.namePos l
  ({ n with comments := c }, l)

/-- build/lex.go:841-898: the line comments before a string -/
def linString (n : StringN) (l : List Comment) : StringN × List Comment :=
  let (c, l) := linC n.comments n.start l
  ({ n with comments := c }, l)

/-- build/lex.go:724-728: the names of a load statement -/
def linLoad : List IdentN → List IdentN → List Comment → List IdentN × List IdentN × List Comment
  | f :: fs, t :: ts, l =>
    let (t', l) := linIdent t l
    let (f', l) := linIdent f l
    let (fs', ts', l) := linLoad fs ts l
    (f' :: fs', t' :: ts', l)
  | fs, ts, l => (fs, ts, l)

mutual
/-- build/lex.go:698-838 and 879-895: a node takes its line comments, then its children from the first to the last. -/
def linE (x : Expr) (l : List Comment) : Expr × List Comment :=
  match x with
  | .nil => (.nil, l)
  | .commentBlock c s => let (c, l) := linC c s l; (.commentBlock c s, l)
  | .ident n => let (n, l) := linIdent n l; (.ident n, l)
  | .typedIdent c i t =>
    let (c, l) := linC c (Expr.startPos (.typedIdent c i t)) l
    let (t, l) := linE t l
    (.typedIdent c i t, l)
  | .branch c t p => let (c, l) := linC c p l; (.branch c t p, l)
  | .literal c s t => let (c, l) := linC c s l; (.literal c s t, l)
  | .string n => let (n, l) := linString n l; (.string n, l)
  | .call c x ls xs e a b =>
    let (c, l) := linC c (Expr.startPos (.call c x ls xs e a b)) l
    let (x, l) := linE x l
    let (xs, l) := linL xs l
    let (e, l) := linEnd e l
    (.call c x ls xs e a b, l)
  | .dot c x d n s =>
    let (c, l) := linC c (Expr.startPos (.dot c x d n s)) l
    let (x, l) := linE x l
    (.dot c x d n s, l)
  | .compr c cu lb body cl f e =>
    let (c, l) := linC c (Expr.startPos (.compr c cu lb body cl f e)) l
    let (body, l) := linE body l
    let (cl, l) := linL cl l
    let (e, l) := linEnd e l
    (.compr c cu lb body cl f e, l)
  | .forClause c f v i x =>
    let (c, l) := linC c (Expr.startPos (.forClause c f v i x)) l
    let (v, l) := linE v l
    let (x, l) := linE x l
    (.forClause c f v i x, l)
  | .ifClause c i x =>
    let (c, l) := linC c (Expr.startPos (.ifClause c i x)) l
    let (x, l) := linE x l
    (.ifClause c i x, l)
  | .keyValue c k p v =>
    let (c, l) := linC c (Expr.startPos (.keyValue c k p v)) l
    let (k, l) := linE k l
    let (v, l) := linE v l
    (.keyValue c k p v, l)
  | .dict c s xs e f =>
    let (c, l) := linC c (Expr.startPos (.dict c s xs e f)) l
    let (xs, l) := linL xs l
    let (e, l) := linEnd e l
    (.dict c s xs e f, l)
  | .list c s xs e f =>
    let (c, l) := linC c (Expr.startPos (.list c s xs e f)) l
    let (xs, l) := linL xs l
    let (e, l) := linEnd e l
    (.list c s xs e f, l)
  | .set c s xs e f =>
    let (c, l) := linC c (Expr.startPos (.set c s xs e f)) l
    let (xs, l) := linL xs l
    let (e, l) := linEnd e l
    (.set c s xs e f, l)
  | .tuple c nb s xs e a b =>
    let (c, l) := linC c (Expr.startPos (.tuple c nb s xs e a b)) l
    let (xs, l) := linL xs l
    let (e, l) := if nb then (e, l) else linEnd e l
    (.tuple c nb s xs e a b, l)
  | .unary c o op x =>
    let (c, l) := linC c (Expr.startPos (.unary c o op x)) l
    let (x, l) := linE x l
    (.unary c o op x, l)
  | .binary c x o op lb y =>
    let (c, l) := linC c (Expr.startPos (.binary c x o op lb y)) l
    let (x, l) := linE x l
    let (y, l) := linE y l
    (.binary c x o op lb y, l)
  | .assign c x o op lb y =>
    let (c, l) := linC c (Expr.startPos (.assign c x o op lb y)) l
    let (x, l) := linE x l
    let (y, l) := linE y l
    (.assign c x o op lb y, l)
  | .paren c s x e f =>
    let (c, l) := linC c (Expr.startPos (.paren c s x e f)) l
    let (x, l) := linE x l
    let (e, l) := linEnd e l
    (.paren c s x e f, l)
  | .slice c x s f c1 t c2 st e =>
    let (c, l) := linC c (Expr.startPos (.slice c x s f c1 t c2 st e)) l
    let (x, l) := linE x l
    let (f, l) := linE f l
    let (t, l) := linE t l
    let (st, l) := linE st l
    (.slice c x s f c1 t c2 st e, l)
  | .index c x s y e =>
    let (c, l) := linC c (Expr.startPos (.index c x s y e)) l
    let (x, l) := linE x l
    let (y, l) := linE y l
    (.index c x s y e, l)
  | .lambda c s ps b =>
    let (c, l) := linC c (Expr.startPos (.lambda c s ps b)) l
    let (ps, l) := linL ps l
    let (b, l) := linL b l
    (.lambda c s ps b, l)
  | .cond c t i te el e =>
    let (c, l) := linC c (Expr.startPos (.cond c t i te el e)) l
    let (t, l) := linE t l
    let (te, l) := linE te l
    let (e, l) := linE e l
    (.cond c t i te el e, l)
  | .load c lp m fs ts r fc =>
    let (c, l) := linC c (Expr.startPos (.load c lp m fs ts r fc)) l
    let (m, l) := linString m l
    let (fs, ts, l) := linLoad fs ts l
    let (r, l) := linEnd r l
    (.load c lp m fs ts r fc, l)
  | .returnS c p r =>
    let (c, l) := linC c (Expr.startPos (.returnS c p r)) l
    let (r, l) := linE r l
    (.returnS c p r, l)
  | .defS c s n ps b cp f1 f2 t =>
    let (c, l) := linC c (Expr.startPos (.defS c s n ps b cp f1 f2 t)) l
    let (ps, l) := linL ps l
    let (b, l) := linL b l
    (.defS c s n ps b cp f1 f2 t, l)
  | .forS c f v x b =>
    let (c, l) := linC c (Expr.startPos (.forS c f v x b)) l
    let (v, l) := linE v l
    let (x, l) := linE x l
    let (b, l) := linL b l
    (.forS c f v x b, l)
  | .ifS c i co t ep fa =>
    let (c, l) := linC c (Expr.startPos (.ifS c i co t ep fa)) l
    let (co, l) := linE co l
    let (t, l) := linL t l
    let (ep, l) := if fa.isEmpty then (ep, l) else linEnd ep l
    let (fa, l) := linL fa l
    (.ifS c i co t ep fa, l)
  | .file c s =>
    let (c, l) := linC c (Expr.startPos (.file c s)) l
    let (s, l) := linL s l
    (.file c s, l)
/-- the elements of a list, from the first to the last (build/lex.go:698-838) -/
def linL (xs : List Expr) (l : List Comment) : List Expr × List Comment :=
  match xs with
  | [] => ([], l)
  | x :: xs =>
    let (x, l) := linE x l
    let (xs, l) := linL xs l
    (x :: xs, l)
end

/-- build/lex.go:841-898 `assignComments` for a file with the given statements: the comments of the file and its statements. -/
def assign (stmts : List Expr) (suffix line : List Comment) : Comments × List Expr :=
  let (stmts, rest) := sufL stmts suffix.reverse
  let (c, line) := linC { before := rest.reverse } (Expr.startPos (.file {} stmts)) line
  let (stmts, line) := linL stmts line
  ({ c with after := line }, stmts)

/-- build/lex.go:233-259 `input.parse`: parse a file. `none` is an error (or too little fuel for the machine). -/
def parseFile (fuel : Nat) (type : FileType) (data : Bytes) : Option File :=
  match Lexer.tokens data with
  | .ok ts st =>
    match Parser.run fuel (Parser.initCfg ts) with
    | none => none
    | some stmts =>
      let (c, stmts) := assign stmts st.suffixComments st.lineComments
      some { type := type, comments := c, stmts := stmts }
  | _ => none

end Verif.Comm
