import Verif.Props.CommentSpec
import Verif.Props.Comments
/-
Specification for C49 with comments: where the comments of a file are.
-/
namespace Verif.Round
open Verif Verif.Syntax Verif.Props.Comments

/-- the condition of an `if` or the sequence of a `for`: a comment at the end of the line, and no other -/
def onHead (x : Expr) : Bool := (comE (x.setComments {})).isEmpty && x.comments.before.isEmpty

mutual
/-- The comments of a statement are before it, after it or at the end of its last line, at the end of the line of an `if`, `elif`, `else` or `for`, or they are
comments of statements in its blocks; none is inside an expression or a parameter list. -/
def onStmts : Expr → Bool
  | .commentBlock c _ => c.before.isEmpty && c.suffix.isEmpty && !c.after.isEmpty
  | .defS _ _ _ ps b _ _ _ t => (comL ps).isEmpty && (comE t).isEmpty && onStmtsL b
  | .forS _ _ v x b => (comE v).isEmpty && onHead x && onStmtsL b
  | .ifS _ _ x t _ e => onHead x && onStmtsL t && onStmtsL e
  | e => (comE (e.setComments {})).isEmpty
/-- the same for lists -/
def onStmtsL : List Expr → Bool
  | [] => true
  | x :: l => onStmts x && onStmtsL l
end

end Verif.Round
