import Verif.Model.Print
/-
Specification for C51 and C63: the comments a printed tree shows, and the trees that can be printed at all.
-/
namespace Verif.Printed
open Verif Verif.Syntax Verif.Print

/-! ## Trees without holes -/

mutual
/-- Nothing is missing in the tree: there is an expression wherever one is needed, a `lambda` and an `if` have a body, and every string literal can be
written (`C03_print_string_crash_iff` says which cannot). Missing elements of lists and statements of blocks are left out. -/
def whole : Expr → Bool
  | .nil => false
  | .file .. => false
  | .commentBlock .. | .literal .. | .ident .. | .branch .. => true
  | .typedIdent _ _ t => whole t
  | .string n => (Quote.printString n.token n.value n.triple).isSome
  | .call _ x _ l .. => whole x && wholeO l
  | .dot _ x .. => whole x
  | .compr _ _ _ b cl .. => whole b && wholeL cl
  | .forClause _ _ v _ x => whole v && whole x
  | .ifClause _ _ x => whole x
  | .keyValue _ k _ v => whole k && whole v
  | .dict _ _ l .. => wholeO l
  | .list _ _ l .. => wholeO l
  | .set _ _ l .. => wholeO l
  | .tuple _ _ _ l .. => wholeO l
  | .unary _ _ _ x => x.isNil || whole x
  | .binary _ x _ _ _ y => whole x && whole y
  | .assign _ x _ _ _ y => whole x && whole y
  | .paren _ _ x .. => x.isNil || whole x
  | .slice _ x _ f _ t _ s _ => whole x && (f.isNil || whole f) && (t.isNil || whole t) && (s.isNil || whole s)
  | .index _ x _ y _ => whole x && whole y
  | .lambda _ _ ps b => wholeL ps && wholeH b
  | .cond _ t _ te _ e => whole t && whole te && whole e
  | .load _ _ m _ _ _ _ => (Quote.printString m.token m.value m.triple).isSome
  | .defS _ _ _ ps b _ _ _ t => wholeO ps && wholeO b && (t.isNil || whole t)
  | .returnS _ _ r => r.isNil || whole r
  | .forS _ _ v x b => whole v && whole x && wholeO b
  | .ifS _ _ c t _ f => whole c && wholeO t && !t.isEmpty && wholeO f
/-- every element -/
def wholeL : List Expr → Bool
  | [] => true
  | x :: l => whole x && wholeL l
/-- every element that is not missing -/
def wholeO : List Expr → Bool
  | [] => true
  | x :: l => (x.isNil || whole x) && wholeO l
/-- the first element -/
def wholeH : List Expr → Bool
  | [] => false
  | x :: _ => whole x
end

/-! ## Texts in the tree -/

section
variable (T : Bytes → Bool) (strict : Bool)

/-- the text of a string literal, as it is printed -/
def fitString (n : StringN) : Bool :=
  match Quote.printString n.token n.value n.triple with
  | some s => T s
  | none => false

/-- the names of a load statement (a local name is only written if it differs from the name that is loaded) -/
def fitLoad : List IdentN → List IdentN → Bool
  | f :: fs, t :: ts => fitString T { value := f.name } && (f.name == t.name || T t.name) && fitLoad fs ts
  | _, _ => true

/-- no comments at the elements of a tuple, nor before its end -/
def bareTuple (l : List Expr) (e : EndN) : Bool :=
  l.all (fun x => x.isNil || (x.comments.before.isEmpty && x.comments.suffix.isEmpty)) && e.comments.before.isEmpty

mutual
/-- Nothing is missing in the tree (as in `whole`) and all texts in it (names, numbers, operators, string literals as they are printed) satisfy `T`. If
`strict`, then there are no comments inside a tuple without parentheses. -/
def fit : Expr → Bool
  | .nil => false
  | .file .. => false
  | .commentBlock .. => true
  | .literal _ _ t => T t
  | .ident n => T n.name
  | .branch _ t _ => T t
  | .typedIdent _ i t => T i.name && fit t
  | .string n => fitString T n
  | .call _ x _ l .. => fit x && fitO l
  | .dot _ x _ _ name => fit x && T name
  | .compr _ _ _ b cl .. => fit b && fitL cl
  | .forClause _ _ v _ x => fit v && fit x
  | .ifClause _ _ x => fit x
  | .keyValue _ k _ v => fit k && fit v
  | .dict _ _ l .. => fitO l
  | .list _ _ l .. => fitO l
  | .set _ _ l .. => fitO l
  | .tuple _ nb _ l e .. => fitO l && (!strict || !nb || bareTuple l e)
  | .unary _ _ op x => T op && (x.isNil || fit x)
  | .binary _ x _ op _ y => T op && (fit x && fit y)
  | .assign _ x _ op _ y => T op && (fit x && fit y)
  | .paren _ _ x .. => x.isNil || fit x
  | .slice _ x _ f _ t _ s _ => fit x && (f.isNil || fit f) && (t.isNil || fit t) && (s.isNil || fit s)
  | .index _ x _ y _ => fit x && fit y
  | .lambda _ _ ps b => fitL ps && fitH b
  | .cond _ t _ te _ e => fit t && fit te && fit e
  | .load _ _ m fs ts _ _ => fitString T m && fitLoad T fs ts
  | .defS _ _ name ps b _ _ _ t => T name && (fitO ps && fitO b && (t.isNil || fit t))
  | .returnS _ _ r => r.isNil || fit r
  | .forS _ _ v x b => fit v && fit x && fitO b
  | .ifS _ _ c t _ f => fit c && fitO t && !t.isEmpty && fitO f
/-- every element -/
def fitL : List Expr → Bool
  | [] => true
  | x :: l => fit x && fitL l
/-- every element that is not missing -/
def fitO : List Expr → Bool
  | [] => true
  | x :: l => (x.isNil || fit x) && fitO l
/-- the first element -/
def fitH : List Expr → Bool
  | [] => false
  | x :: _ => fit x
end
end

/-! ## Comments that are shown -/

/-- around a node: comments on lines of their own before it, and comments at the end of its last line -/
def around (c : Comments) (inner : List Comment) : List Comment := c.before ++ (inner ++ c.suffix)

/-- the names of a load statement: `t = "f"`, or only `"f"` if both names are the same -/
def shownLoad : List IdentN → List IdentN → List Comment
  | f :: fs, t :: ts =>
    (if f.name = t.name then t.comments.before ++ f.comments.suffix else around t.comments [] ++ around f.comments []) ++ shownLoad fs ts
  | _, _ => []

mutual
/-- The comments that printing the tree shows. Not shown: comments after anything but a statement, comments at the end of the line of a closing bracket
(they belong to the whole), those of an `if` printed as `elif`, those before an `else`. -/
def shown : Expr → List Comment
  | .nil => []
  | .file .. => []
  | .commentBlock c _ => around c []
  | .literal c .. => around c []
  | .ident n => around n.comments []
  | .branch c .. => around c []
  | .typedIdent c n t => around c (around n.comments [] ++ shown t)
  | .string n => around n.comments []
  | .call c x _ l e _ _ => around c (shown x ++ (shownL l ++ e.comments.before))
  | .dot c x .. => around c (shown x)
  | .compr c _ _ b cl _ e => around c (shown b ++ (shownL cl ++ e.comments.before))
  | .forClause c _ v _ x => around c (shown v ++ shown x)
  | .ifClause c _ x => around c (shown x)
  | .keyValue c k _ v => around c (shown k ++ shown v)
  | .dict c _ l e _ => around c (shownL l ++ e.comments.before)
  | .list c _ l e _ => around c (shownL l ++ e.comments.before)
  | .set c _ l e _ => around c (shownL l ++ e.comments.before)
  | .tuple c _ _ l e _ _ => around c (shownL l ++ e.comments.before)
  | .unary c _ _ x => around c (shown x)
  | .binary c x _ _ _ y => around c (shown x ++ shown y)
  | .assign c x _ _ _ y => around c (shown x ++ shown y)
  | .paren c _ x e _ => around c (shown x ++ e.comments.before)
  | .slice c x _ f _ t p s _ => around c (shown x ++ (shown f ++ (shown t ++ (if p.byte ≠ 0 then shown s else []))))
  | .index c x _ y _ => around c (shown x ++ shown y)
  | .lambda c _ ps b => around c (shownL ps ++ shownH b)
  | .cond c t _ te _ e => around c (shown t ++ (shown te ++ shown e))
  | .load c _ m fs ts r _ => around c (around m.comments [] ++ (shownLoad fs ts ++ r.comments.before))
  | .defS c _ _ ps b _ _ _ t => around c (shownL ps ++ (shown t ++ shownS b))
  | .returnS c _ r => around c (shown r)
  | .forS c _ v x b => around c (shown v ++ (shown x ++ shownS b))
  | .ifS c _ x t e f => around c (shown x ++ (shownS t ++ shownElse e f))
/-- a list -/
def shownL : List Expr → List Comment
  | [] => []
  | x :: l => shown x ++ shownL l
/-- the first of a list -/
def shownH : List Expr → List Comment
  | [] => []
  | x :: _ => shown x
/-- a block of statements -/
def shownS : List Expr → List Comment
  | [] => []
  | x :: l => shown x ++ (x.comments.after ++ shownS l)
/-- the `else` part: nothing, `elif`, or `else` -/
def shownElse (e : EndN) : List Expr → List Comment
  | [] => []
  | [.ifS c2 _ x2 t2 e2 f2] =>
    if e.comments.suffix.isEmpty && c2.before.isEmpty then shown x2 ++ (shownS t2 ++ shownElse e2 f2)
    else e.comments.suffix ++ (around c2 (shown x2 ++ (shownS t2 ++ shownElse e2 f2)) ++ c2.after)
  | x :: l => e.comments.suffix ++ (shown x ++ (x.comments.after ++ shownS l))
end

/-! ## Comments that are forgotten -/

/-- In `load(..., a = "a")`, which is printed as `load(..., "a")`: the comments after the first and before the second `a`. -/
def lostLoad : List IdentN → List IdentN → List Comment
  | f :: fs, t :: ts => (if f.name = t.name then t.comments.suffix ++ f.comments.before else []) ++ lostLoad fs ts
  | _, _ => []

/-- The comments after an `if` statement that is the only statement of an `else` branch and that is printed as `elif`. -/
def lostElif (e : EndN) : List Expr → List Comment
  | [.ifS c ..] => if e.comments.suffix.isEmpty && c.before.isEmpty then c.after else []
  | _ => []

mutual
/-- The comments in the tree that are never printed: those of `lostLoad` and `lostElif`, and those on lines of their own before an `else`. -/
def lost : Expr → List Comment
  | .nil | .commentBlock .. | .literal .. | .ident .. | .branch .. | .string .. | .file .. => []
  | .typedIdent _ _ t => lost t
  | .call _ x _ l .. => lost x ++ lostL l
  | .dot _ x .. => lost x
  | .compr _ _ _ b cl .. => lost b ++ lostL cl
  | .forClause _ _ v _ x => lost v ++ lost x
  | .ifClause _ _ x => lost x
  | .keyValue _ k _ v => lost k ++ lost v
  | .dict _ _ l .. => lostL l
  | .list _ _ l .. => lostL l
  | .set _ _ l .. => lostL l
  | .tuple _ _ _ l .. => lostL l
  | .unary _ _ _ x => lost x
  | .binary _ x _ _ _ y => lost x ++ lost y
  | .assign _ x _ _ _ y => lost x ++ lost y
  | .paren _ _ x .. => lost x
  | .slice _ x _ f _ t _ s _ => lost x ++ (lost f ++ (lost t ++ lost s))
  | .index _ x _ y _ => lost x ++ lost y
  | .lambda _ _ ps b => lostL ps ++ lostL b
  | .cond _ t _ te _ e => lost t ++ (lost te ++ lost e)
  | .load _ _ _ fs ts _ _ => lostLoad fs ts
  | .defS _ _ _ ps b _ _ _ t => lostL ps ++ (lostL b ++ lost t)
  | .returnS _ _ r => lost r
  | .forS _ _ v x b => lost v ++ (lost x ++ lostL b)
  | .ifS _ _ x t e f => lost x ++ (lostL t ++ (e.comments.before ++ (lostElif e f ++ lostL f)))
/-- a list -/
def lostL : List Expr → List Comment
  | [] => []
  | x :: l => lost x ++ lostL l
end

/-- The texts occur one after the other, without overlap. -/
inductive Occur : List Bytes → Bytes → Prop
  | nil (s) : Occur [] s
  | cons (x t l s) : Occur l s → Occur (t :: l) (x ++ (t ++ s))

end Verif.Printed
