import Verif.Props.RoundSpec
/-
Specification for C49 and C50 with comments: files whose statements have comments before them, at the end of their lines and after them, and which contain
comment blocks.
-/
namespace Verif.Round
open Verif Verif.Syntax Verif.Lexer Verif.Print

/-! ## Comments -/

/-- the text of a comment: it starts with `#` and does not end before the end of the line -/
def ComOK (c : Comment) : Prop := ∃ r, c.token = 35 :: r ∧ 10 ∉ r

/-- all comments in the list -/
def ComsOK (l : List Comment) : Prop := ∀ c ∈ l, ComOK c

/-- all comments of a node -/
def NodeOK (c : Comments) : Prop := ComsOK c.before ∧ ComsOK c.suffix ∧ ComsOK c.after

/-- the statements of a list, without the comment blocks between them -/
def stmtsOf (l : List Expr) : List Expr := l.filter (fun x => !Parser.isCommentBlock x)

/-- statements with a block -/
def isBlock : Expr → Bool
  | .defS .. | .forS .. | .ifS .. => true
  | _ => false

/-! ## Trees that can be printed -/

/-- the condition of an `if` or the sequence of a `for`: there may be comments at the end of the line -/
def OkHead (x : Expr) : Prop := OkExpr (x.setComments {}) ∧ x.comments.before = [] ∧ ComsOK x.comments.suffix

/-- Statements with comments before them, at the end of their last line and after them; the blocks contain such statements and comment blocks. -/
inductive OkStmtC : Expr → Prop
  | simple (e) : isBlock e = false → OkStmt (e.setComments {}) → NodeOK e.comments → OkStmtC e
  | block (c p) : c.before = [] → c.suffix = [] → c.after ≠ [] → ComsOK c.after → OkStmtC (.commentBlock c p)
  | def_ (c p name ps body cp fc fm ty) : NodeOK c → Name name → (∀ a ∈ ps, OkParam true a) → (ty.isNil = false → Ok ty) → stmtsOf body ≠ [] →
      (∀ s ∈ body, OkStmtC s) → OkStmtC (.defS c p name ps body cp fc fm ty)
  | for_ (c p v x body) : NodeOK c → OkVars v → OkHead x → stmtsOf body ≠ [] → (∀ s ∈ body, OkStmtC s) → OkStmtC (.forS c p v x body)
  | if_ (c p x body ep els) : NodeOK c → OkHead x → ComsOK ep.comments.suffix → stmtsOf body ≠ [] → (∀ s ∈ body, OkStmtC s) →
      (els ≠ [] → stmtsOf els ≠ []) → (∀ s ∈ els, OkStmtC s) → OkStmtC (.ifS c p x body ep els)

/-! ## Files that are the same -/

mutual
/-- The statements are the same (in the sense of `Same`); comment blocks in their blocks do not count. -/
inductive SameS : Expr → Expr → Prop
  | simple (e e') : isBlock e = false → Same e e' → SameS e e'
  | defS (c p name ps b cp x y t c' p' ps' b' cp' x' y' t') : SameL ps ps' → SameSL (stmtsOf b) (stmtsOf b') → Same t t' →
      SameS (.defS c p name ps b cp x y t) (.defS c' p' name ps' b' cp' x' y' t')
  | forS (c p v x b c' p' v' x' b') : Same v v' → Same x x' → SameSL (stmtsOf b) (stmtsOf b') → SameS (.forS c p v x b) (.forS c' p' v' x' b')
  | ifS (c p x t ep f c' p' x' t' ep' f') : Same x x' → SameSL (stmtsOf t) (stmtsOf t') → SameSL (stmtsOf f) (stmtsOf f') →
      SameS (.ifS c p x t ep f) (.ifS c' p' x' t' ep' f')
/-- the same for lists -/
inductive SameSL : List Expr → List Expr → Prop
  | nil : SameSL [] []
  | cons (x x' l l') : SameS x x' → SameSL l l' → SameSL (x :: l) (x' :: l')
end

end Verif.Round
