import Verif.Model.Numbers
/-
Model of `removeParens`, `collapseEmpty` and `fixMultilinePlus` (/repo/build/rewrite.go).
-/
namespace Verif.Rewrite
open Verif Verif.Syntax Verif.Walk

/-- the empty-comments test of rewrite.go:1444 -/
def noComments (c : Comments) : Bool := c.before.isEmpty && c.after.isEmpty && c.suffix.isEmpty

/-- rewrite.go:1448-1458: the switch on the type of the parenthesised expression -/
def parenDroppable : Expr → Bool
  | .compr .. => true
  | .dict .. => true
  | .ident .. => true
  | .list .. => true
  | .literal .. => true
  | .paren .. => true
  | .set .. => true
  | .string .. => true
  | .call _ x .. => x.startPos.line == x.endPos.line
  | _ => false

/-- rewrite.go:1439-1446: the expression inside removable parentheses, if any -/
def parenInner : Expr → Option Expr
  | .paren c _ x _ force => if !force && noComments c && parenDroppable x then some x else none
  | _ => none

/-- rewrite.go:1437-1460 `simplify`; `Edit(x, simplify)` recursively, with a recursion budget. A node that is returned
unchanged is not assigned anew (walk.go:91 compares with the old value; assigning the same pointer changes nothing). -/
def simplifyN : Nat → Expr → Expr × Bool
  | 0, e => (e, false)
  | n + 1, e =>
    match parenInner e with
    | some x => ((editN (fun (_ : Unit) y _ => ((), simplifyN n y)) n () x []).2.1, true)
    | none => (e, false)

/-- rewrite.go:1434-1463 `removeParens` -/
def removeParens (e : Expr) : Expr :=
  (editN (fun (_ : Unit) y _ => ((), simplifyN (size e) y)) (size e) () e []).2.1

/-- rewrite.go:1468-1470: the callback of `collapseEmpty` -/
def collapse : Expr → Expr
  | .call c x p l e a b => .call c x p l e a (if l.isEmpty then false else b)
  | e => e

/-- rewrite.go:1465-1471 `collapseEmpty` -/
def collapseEmpty (e : Expr) : Expr := walkMut (fun x _ => collapse x) e

mutual
/-- rewrite.go:814-824 `isList` (within `fixMultilinePlus`) -/
def isListP : Expr → Bool
  | .list .. => true
  | .call _ _ _ l .. => isListP1 l
  | _ => false
/-- `len(x.List) == 1 && isList(x.List[0])` (build/rewrite.go:806-943) -/
def isListP1 : List Expr → Bool
  | [x] => isListP x
  | _ => false
end

mutual
/-- rewrite.go:828-841 `isMultiLine` -/
def isMultiLineP : Expr → Bool
  | .list _ _ l _ force => force || decide (l.length > 1)
  | .call _ _ _ l _ compact force => (force || (decide (l.length > 1) && !compact)) || isMultiLineP1 l
  | _ => false
/-- `len(x.List) == 1 && isMultiLine(x.List[0])` (build/rewrite.go:806-943) -/
def isMultiLineP1 : List Expr → Bool
  | [x] => isMultiLineP x
  | _ => false
end

mutual
/-- rewrite.go:846-868 `forceMultiLine`: the changed expression and the reported success -/
def forceMulti : Expr → Expr × Bool
  | .list c p l e force =>
    if force then (.list c p l e force, true)
    else
      let r := forceMulti1 l
      (.list c p r.1 e (!r.2), true)
  | .call c x p l e a b =>
      let r := forceMulti1 l
      (.call c x p r.1 e a b, r.2)
  | e => (e, false)
/-- `len(x.List) == 1 && forceMultiLine(x.List[0])` (build/rewrite.go:806-943) -/
def forceMulti1 : List Expr → List Expr × Bool
  | [x] => let r := forceMulti x; ([r.1], r.2)
  | l => (l, false)
end

/-- a `+` expression (build/rewrite.go:806-943) -/
def isPlus : Expr → Bool
  | .binary _ _ _ o _ _ => o == b!"+"
  | _ => false

/-- rewrite.go:886-916: does the chain of `+` (down the left side) contain a list among its operands? -/
def chainHasList : Expr → Bool
  | .binary _ x _ o _ y =>
    if o == b!"+" then isListP y || (if isPlus x then chainHasList x else isListP x) else false
  | _ => false

/-- rewrite.go:920-941: what is done with one `+` between `prev` and `y`: the new line break flag and the new `y` -/
def plusStep (prev : Expr) (lineBreak : Bool) (y : Expr) : Bool × Expr :=
  if !lineBreak then (lineBreak, y)
  else
    let r := forceMulti y
    if r.2 then (false, r.1)
    else if isMultiLineP prev then (false, r.1)
    else (lineBreak, r.1)

/-- `all[i-1]` for the operator above `x`: the right operand of the chain below, or its first operand (build/rewrite.go:806-943) -/
def chainLast : Expr → Expr
  | .binary c x p o l y => if o == b!"+" then y else .binary c x p o l y
  | e => e

/-- rewrite.go:918-941: the operators of a chain, from left to right. -/
def chainStep : Expr → Expr
  | .binary c x p o l y =>
    if o == b!"+" then
      let x' := chainStep x
      let r := plusStep (chainLast x') l y
      .binary c x' p o r.1 r.2
    else .binary c x p o l y
  | e => e

/-- rewrite.go:871-942: the callback, for a node that is not marked to be skipped -/
def plusNode (v : Expr) : Expr := if isPlus v && chainHasList v then chainStep v else v

/-- rewrite.go:870-942: the traversal. `skip` says that the node is in Go's `skip` map: those are exactly the `+` expressions
that are the left operand of a `+` expression. -/
def plusN : Nat → Bool → Expr → Expr
  | 0, _, v => v
  | n + 1, skip, v =>
    if v.isNil then v
    else
      let v1 := if skip then v else plusNode v
      match slots v1 with
      | [] => v1
      | x :: rest => withSlots v1 (plusN n (isPlus v1 && isPlus x) x :: rest.map (plusN n false))

/-- rewrite.go:806-943 `fixMultilinePlus` -/
def fixMultilinePlus (e : Expr) : Expr := plusN (size e) false e

end Verif.Rewrite
