import Verif.Props.CommentSpec
/-
Specification for C50 with comments everywhere: comments before and after statements, and comments inside expressions, argument lists and parameter lists.
-/
namespace Verif.RoundI
open Verif Verif.Syntax Verif.Lexer Verif.Print Verif.Round

/-! ## Comments -/

/-- the comments of a node that starts a line -/
def CO (c : Comments) : Prop := ComsOK c.before ∧ ComsOK c.suffix

/-- the comments of a node that does not start a line: there are none before it -/
def CN (c : Comments) : Prop := c.before = [] ∧ ComsOK c.suffix

/-- no comments before the expression -/
def NB (x : Expr) : Prop := x.comments.before = []

/-- no comments before the expression and none after it -/
def Bare (x : Expr) : Prop := x.comments.before = [] ∧ x.comments.suffix = []

/-! ## Trees that can be printed -/

mutual
/-- Expressions that can stand wherever a single expression is expected (as `Round.Ok`), with comments: any node may have comments at the end of its line;
comments before a node are allowed for the elements of lists, sets, dictionaries, tuples with parentheses, for arguments, for an expression in parentheses, for
the parts of a comprehension that is written on several lines, and before every closing bracket. -/
inductive Ok : Expr → Prop
  | ident (n) : CO n.comments → Name n.name → Ok (.ident n)
  | int (c p t) : CO c → IntText t → Ok (.literal c p t)
  | float (c p t) : CO c → Float t → Ok (.literal c p t)
  | string (n) : CO n.comments → (n.token = [] ∨ Props.Quote.LexedToken n.token) → Ok (.string n)
  | dot (c x dp np name) : CO c → OkN x → isCond x = false → isInt x = false → Name name → Ok (.dot c x dp np name)
  | call (c x ls l e fc fm) : CO c → ComsOK e.comments.before → OkN x → isCond x = false → (∀ a ∈ l, OkArg a) → Ok (.call c x ls l e fc fm)
  | index (c x p y e) : CO c → OkN x → isCond x = false → OkExprN y → Ok (.index c x p y e)
  | slice (c x p fr c1 to c2 st e) : CO c → OkN x → isCond x = false → (fr.isNil = false → OkExprN fr) → (to.isNil = false → OkN to) →
      (st.isNil = false → OkN st) → (c2.byte = 0 → st.isNil) → Ok (.slice c x p fr c1 to c2 st e)
  | list (c s l e fm) : CO c → ComsOK e.comments.before → (∀ a ∈ l, Ok a) → Ok (.list c s l e fm)
  | set (c s l e fm) : CO c → ComsOK e.comments.before → l ≠ [] → (∀ a ∈ l, Ok a) → Ok (.set c s l e fm)
  | tuple (c s l e fc fm) : CO c → ComsOK e.comments.before → (∀ a ∈ l, Ok a) → Ok (.tuple c false s l e fc fm)
  | dict (c s l e fm) : CO c → ComsOK e.comments.before → (∀ a ∈ l, OkKV a) → Ok (.dict c s l e fm)
  | paren (c s x e fm) : CO c → ComsOK e.comments.before → Ok x → Ok (.paren c s x e fm)
  | listCompr (c p b cl fm e) : CO c → ComsOK e.comments.before → Ok b → (∀ a ∈ cl, OkClause a) → forFirst cl → clausesApart cl →
      (fm = true ∨ e.comments.before ≠ [] ∨ NB b ∧ ∀ a ∈ cl, NB a) → Ok (.compr c false p b cl fm e)
  | dictCompr (c p b cl fm e) : CO c → ComsOK e.comments.before → OkKV b → (∀ a ∈ cl, OkClause a) → forFirst cl → clausesApart cl →
      (fm = true ∨ e.comments.before ≠ [] ∨ NB b ∧ ∀ a ∈ cl, NB a) → Ok (.compr c true p b cl fm e)
  | unary (c p op x) : CO c → op ∈ unOps → OkN x → isCond x = false → Ok (.unary c p op x)
  | binary (c x p op lb y) : CO c → op ∈ binOps → OkN x → isCond x = false → OkN y → isCond y = false → Ok (.binary c x p op lb y)
  | is (c x p lb y) : CO c → OkN x → isCond x = false → openEnd x = false → OkN y → isCond y = false → isNot y = false →
      Ok (.binary c x p b!"is" lb y)
  | isNot (c x p lb y) : CO c → OkN x → isCond x = false → openEnd x = false → OkN y → isCond y = false → isBin y = false →
      Ok (.binary c x p b!"is not" lb y)
  | lambda (c p ps b) : CO c → (∀ a ∈ ps, OkParam false a) → (∀ a ∈ ps, NB a) → OkN b → Ok (.lambda c p ps [b])
  | cond (c t i te el e) : CO c → OkN t → OkN te → OkN e → isCond e = false → Ok (.cond c t i te el e)
  | load (c p m fs ts r fc) : CO c → ComsOK r.comments.before → CO m.comments → (m.token = [] ∨ Props.Quote.LexedToken m.token) → fs ≠ [] →
      fs.length = ts.length → (∀ n ∈ fs, CN n.comments) → (∀ q ∈ fs.zip ts, q.1.name = q.2.name ∧ ComsOK q.2.comments.before ∨ Name q.2.name ∧ CN q.2.comments) →
      Ok (.load c p m fs ts r fc)
/-- an expression without comments before it -/
inductive OkN : Expr → Prop
  | mk (x) : Ok x → NB x → OkN x
/-- arguments of a call -/
inductive OkArg : Expr → Prop
  | plain (x) : Ok x → OkArg x
  | named (c n p lb y) : CO c → CN n.comments → Name n.name → OkN y → OkArg (.assign c (.ident n) p b!"=" lb y)
  | star (c p x) : CO c → OkN x → OkArg (.unary c p b!"*" x)
  | starStar (c p x) : CO c → OkN x → OkArg (.unary c p b!"**" x)
/-- parameters of a function, with or without types -/
inductive OkParam : Bool → Expr → Prop
  | plain (ty n) : CO n.comments → Name n.name → OkParam ty (.ident n)
  | default (ty c n p lb y) : CO c → CN n.comments → Name n.name → OkN y → OkParam ty (.assign c (.ident n) p b!"=" lb y)
  | bare (ty c p) : CO c → OkParam ty (.unary c p b!"*" .nil)
  | star (ty c p n) : CO c → CN n.comments → Name n.name → OkParam ty (.unary c p b!"*" (.ident n))
  | starStar (ty c p n) : CO c → CN n.comments → Name n.name → OkParam ty (.unary c p b!"**" (.ident n))
  | typed (c n t) : CO c → CN n.comments → Name n.name → OkN t → OkParam true (.typedIdent c n t)
  | typedDefault (c c' n t p lb y) : CO c → CN c' → CN n.comments → Name n.name → OkN t → OkN y →
      OkParam true (.assign c (.typedIdent c' n t) p b!"=" lb y)
  | typedStar (c c' p n t) : CO c → CN c' → CN n.comments → Name n.name → OkN t → OkParam true (.unary c p b!"*" (.typedIdent c' n t))
  | typedStarStar (c c' p n t) : CO c → CN c' → CN n.comments → Name n.name → OkN t → OkParam true (.unary c p b!"**" (.typedIdent c' n t))
/-- key-value pairs of a dictionary -/
inductive OkKV : Expr → Prop
  | kv (c k p v) : CO c → OkN k → OkN v → OkKV (.keyValue c k p v)
/-- clauses of a comprehension -/
inductive OkClause : Expr → Prop
  | for_ (c p v i x) : CO c → OkVarsN v → OkN x → isCond x = false → OkClause (.forClause c p v i x)
  | if_ (c p x) : CO c → OkN x → isCond x = false → OkClause (.ifClause c p x)
/-- loop variables -/
inductive OkVars : Expr → Prop
  | one (x) : Ok x → isPrimary x → OkVars x
  | tuple (c s x y l e fc fm) : CO c → e.comments.before = [] → (∀ a ∈ x :: y :: l, Ok a) → (∀ a ∈ x :: y :: l, Bare a) → (∀ a ∈ x :: y :: l, isPrimary a) →
      OkVars (.tuple c true s (x :: y :: l) e fc fm)
/-- an expression or a tuple without parentheses; only its first element may be a conditional -/
inductive OkExpr : Expr → Prop
  | one (x) : Ok x → OkExpr x
  | tuple (c s x y l e fc fm) : CO c → e.comments.before = [] → (∀ a ∈ x :: y :: l, Ok a) → (∀ a ∈ x :: y :: l, Bare a) → (∀ a ∈ y :: l, isCond a = false) →
      OkExpr (.tuple c true s (x :: y :: l) e fc fm)
/-- loop variables without comments before them -/
inductive OkVarsN : Expr → Prop
  | mk (x) : OkVars x → NB x → OkVarsN x
/-- an expression or a tuple without comments before it -/
inductive OkExprN : Expr → Prop
  | mk (x) : OkExpr x → NB x → OkExprN x
end

/-- statements without a block -/
inductive OkStmt : Expr → Prop
  | expr (x) : OkExpr x → OkStmt x
  | assign (c x p op lb y) : op ∈ assignOps → OkExprN x → OkExprN y → OkStmt (.assign c x p op lb y)
  | aug (c x p op lb y) : op ∈ augOps → OkExprN x → OkExprN y → OkStmt (.binary c x p op lb y)
  | return_ (c p x) : (x.isNil = false → OkExprN x) → OkStmt (.returnS c p x)
  | branch (c t p) : t ∈ [b!"pass", b!"break", b!"continue"] → OkStmt (.branch c t p)

/-- Statements with comments before them, at the end of their last line, after them and inside their expressions; the blocks contain such statements and
comment blocks. -/
inductive OkStmtC : Expr → Prop
  | simple (e) : OkStmt e → NodeOK e.comments → OkStmtC e
  | block (c p) : c.before = [] → c.suffix = [] → c.after ≠ [] → ComsOK c.after → OkStmtC (.commentBlock c p)
  | def_ (c p name ps body cp fc fm ty) : NodeOK c → Name name → (∀ a ∈ ps, OkParam true a) → (ty.isNil = false → OkN ty) → stmtsOf body ≠ [] →
      (∀ s ∈ body, OkStmtC s) → OkStmtC (.defS c p name ps body cp fc fm ty)
  | for_ (c p v x body) : NodeOK c → OkVarsN v → OkExprN x → stmtsOf body ≠ [] → (∀ s ∈ body, OkStmtC s) → OkStmtC (.forS c p v x body)
  | if_ (c p x body ep els) : NodeOK c → OkExprN x → ComsOK ep.comments.suffix → stmtsOf body ≠ [] → (∀ s ∈ body, OkStmtC s) →
      (els ≠ [] → stmtsOf els ≠ []) → (∀ s ∈ els, OkStmtC s) → OkStmtC (.ifS c p x body ep els)

end Verif.RoundI
