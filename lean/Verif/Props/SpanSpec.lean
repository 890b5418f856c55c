import Verif.Proofs.LexGood
/-
C97, specification: where the nodes of a parsed file are.
-/
namespace Verif.Props.Spans
open Verif Verif.Syntax Verif.Lexer Verif.Props.Lexer

/-! ### Specification -/

/-- the text `s` is found in the file at position `p`: line, column and byte of `p` are those of the place where `s` begins -/
def At (text : Bytes) (p : Pos) (s : Bytes) : Prop := ∃ pre post, text = pre ++ s ++ post ∧ p = posAt pre

/-- an optional child -/
def opt (x : Expr) : List Expr := if x.isNil then [] else [x]

/-- the children of a node in the order in which they are written (the names in a load statement are left out: their
positions are computed from the unquoted text) -/
def kids : Expr → List Expr
  | .typedIdent _ i t => [.ident i, t]
  | .call _ x _ l _ _ _ => x :: l
  | .dot _ x _ _ _ => [x]
  | .compr _ _ _ b cl _ _ => b :: cl
  | .forClause _ _ v _ x => [v, x]
  | .ifClause _ _ x => [x]
  | .keyValue _ k _ v => [k, v]
  | .dict _ _ l _ _ => l
  | .list _ _ l _ _ => l
  | .set _ _ l _ _ => l
  | .tuple _ _ _ l _ _ _ => l
  | .unary _ _ _ x => opt x
  | .binary _ x _ _ _ y => [x, y]
  | .assign _ x _ _ _ y => [x, y]
  | .paren _ _ x _ _ => [x]
  | .slice _ x _ f _ t _ s _ => x :: (opt f ++ opt t ++ opt s)
  | .index _ x _ y _ => [x, y]
  | .lambda _ _ ps b => ps ++ b
  | .cond _ t _ te _ e => [t, te, e]
  | .load _ _ m _ _ _ _ => [.string m]
  | .defS _ _ _ ps b _ _ _ ty => ps ++ opt ty ++ b
  | .returnS _ _ r => opt r
  | .forS _ _ v x b => v :: x :: b
  | .ifS _ _ c t _ f => c :: (t ++ f)
  | .file _ l => l
  | _ => []

/-- The nodes come one after the other between the bytes `lo` and `hi`: each begins where the one before it has ended, or
later, and ends after its beginning. -/
def InOrder (lo : Nat) : List Expr → Nat → Prop
  | [], hi => lo ≤ hi
  | x :: l, hi => lo ≤ x.startPos.byte ∧ x.startPos.byte ≤ x.endPos.byte ∧ InOrder x.endPos.byte l hi

/-- The positions a node keeps are those of the tokens they are meant for. -/
def Located (text : Bytes) : Expr → Prop
  | .nil => False
  | .commentBlock _ p => At text p b!"#"
  | .ident n => At text n.namePos n.name
  | .typedIdent .. => True
  | .branch _ t p => At text p t
  | .literal _ p t => ∃ a b, t = a ++ b ∧ a ≠ [] ∧ At text p a
  | .string n => At text n.start n.token ∧ n.endPos = n.start.add n.token
  | .call _ _ p _ e _ _ => At text p b!"(" ∧ At text e.pos b!")"
  | .dot _ _ p q n => At text p b!"." ∧ At text q n
  | .compr _ curly p _ _ _ e =>
    if curly then At text p b!"{" ∧ At text e.pos b!"}" else At text p b!"[" ∧ At text e.pos b!"]"
  | .forClause _ p _ q _ => At text p b!"for" ∧ At text q b!"in"
  | .ifClause _ p _ => At text p b!"if"
  | .keyValue _ _ p _ => At text p b!":"
  | .dict _ p _ e _ => At text p b!"{" ∧ At text e.pos b!"}"
  | .list _ p _ e _ => At text p b!"[" ∧ At text e.pos b!"]"
  | .set _ p _ e _ => At text p b!"{" ∧ At text e.pos b!"}"
  | .tuple _ nb p l e _ _ => if nb then l ≠ [] else At text p b!"(" ∧ At text e.pos b!")"
  | .unary _ p o x => At text p o ∧ (x.isNil = true → o = b!"*")
  | .binary _ _ p o _ _ => At text p o ∨ (o = b!"not in" ∧ At text p b!"not") ∨ (o = b!"is not" ∧ At text p b!"is")
  | .assign _ _ p o _ _ => At text p o
  | .paren _ p _ e _ => At text p b!"(" ∧ At text e.pos b!")"
  | .slice _ _ p _ c1 _ _ _ e => At text p b!"[" ∧ At text c1 b!":" ∧ At text e b!"]"
  | .index _ _ p _ e => At text p b!"[" ∧ At text e b!"]"
  | .lambda _ p _ b => At text p b!"lambda" ∧ b ≠ []
  | .cond _ _ p _ q _ => At text p b!"if" ∧ At text q b!"else"
  | .load _ p _ _ _ r _ => At text p b!"load" ∧ At text r.pos b!")"
  | .defS _ p _ _ b q _ _ _ => At text p b!"def" ∧ At text q b!":" ∧ b ≠ []
  | .returnS _ p _ => At text p b!"return"
  | .forS _ p _ _ b => At text p b!"for" ∧ b ≠ []
  | .ifS _ p _ t e f => (At text p b!"if" ∨ At text p b!"elif" ∨ At text p b!"else") ∧ t ≠ [] ∧
      (f ≠ [] → At text e.pos b!"else" ∨ At text e.pos b!"elif")
  | .file .. => False

/-- Every node below, and including, `e` keeps the right positions, and its children lie within its span one after the
other. -/
inductive Nested (text : Bytes) : Expr → Prop
  | mk (e : Expr) : Located text e → InOrder e.startPos.byte (kids e) e.endPos.byte → (∀ k ∈ kids e, Nested text k) →
      Nested text e

end Verif.Props.Spans
