import Verif.Props.InsideSpec
import Verif.Props.Comments
/-
Specification for C49 with comments inside expressions: where the comments of a file are.
-/
namespace Verif.RoundI
open Verif Verif.Syntax Verif.Props.Comments

/-- no comments before the expression -/
def noB (x : Expr) : Bool := x.comments.before.isEmpty

/-- neither before it nor at the end of its line -/
def noBS (x : Expr) : Bool := x.comments.before.isEmpty && x.comments.suffix.isEmpty

mutual
/-- Inside the expression there are comments before a node only if the node starts a line when it is printed: an element of a list, set, dictionary or tuple in
brackets, an argument, an expression in parentheses, a part of a comprehension on several lines, a parameter of a `def`, a symbol of `load`, a closing bracket. The elements
of tuples without parentheses have no comments. -/
def inE : Expr → Bool
  | .typedIdent _ i t => i.comments.before.isEmpty && noB t && inE t
  | .call _ x _ l _ _ _ => noB x && inE x && inL l
  | .dot _ x _ _ _ => noB x && inE x
  | .compr _ _ _ b cl fm e => inE b && inL cl && (fm || !e.comments.before.isEmpty || noB b && cl.all noB)
  | .forClause _ _ v _ x => noB v && inE v && noB x && inE x
  | .ifClause _ _ x => noB x && inE x
  | .keyValue _ k _ v => noB k && inE k && noB v && inE v
  | .dict _ _ l _ _ => inL l
  | .list _ _ l _ _ => inL l
  | .set _ _ l _ _ => inL l
  | .tuple _ np _ l e _ _ => inL l && (!np || e.comments.before.isEmpty && l.all noBS)
  | .unary _ _ _ x => noB x && inE x
  | .binary _ x _ _ _ y => noB x && inE x && noB y && inE y
  | .assign _ x _ _ _ y => noB x && inE x && noB y && inE y
  | .paren _ _ x _ _ => inE x
  | .slice _ x _ f _ t _ st _ => noB x && inE x && noB f && inE f && noB t && inE t && noB st && inE st
  | .index _ x _ y _ => noB x && inE x && noB y && inE y
  | .lambda _ _ ps b => ps.all noB && inL ps && b.all noB && inL b
  | .cond _ t _ te _ e => noB t && inE t && noB te && inE te && noB e && inE e
  | .load _ _ _ fs ts _ _ => fs.all (fun n => n.comments.before.isEmpty) && (fs.zip ts).all (fun q => q.1.name == q.2.name || q.2.comments.before.isEmpty)
  | .returnS _ _ x => noB x && inE x
  | _ => true
/-- the same for lists -/
def inL : List Expr → Bool
  | [] => true
  | x :: l => inE x && inL l
end

mutual
/-- the places of the comments of a statement -/
def inS : Expr → Bool
  | .commentBlock c _ => c.before.isEmpty && c.suffix.isEmpty && !c.after.isEmpty
  | .defS _ _ _ ps b _ _ _ t => inL ps && noB t && inE t && inSL b
  | .forS _ _ v x b => noB v && inE v && noB x && inE x && inSL b
  | .ifS _ _ x t _ e => noB x && inE x && inSL t && inSL e
  | e => inE e
/-- the same for lists -/
def inSL : List Expr → Bool
  | [] => true
  | x :: l => inS x && inSL l
end

end Verif.RoundI
