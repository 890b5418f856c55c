import Verif.Model.Syntax
/-
Model of /repo/build/walk.go.

A callback is modelled as a state transformer `σ → Expr → stack → σ × ...`; Go closures over mutable variables are
the state `σ`. The `stk` argument is the list of ancestors, outermost first, as in Go.
-/
namespace Verif.Walk
open Verif Verif.Syntax

/-- The from/to identifiers of a load in the order `WalkOnce` passes them (walk.go:190-199): From[0], To[0],
From[1], ... Go ranges over `From` and indexes `To` (a shorter `To` would panic). -/
def interleave : List IdentN → List IdentN → List Expr
  | f :: fs, t :: ts => .ident f :: .ident t :: interleave fs ts
  | _, _ => []

/-- build/walk.go:111-227 `WalkOnce`: the slots that are passed to the callback, in order. Absent optional fields are
`nil` slots, which every callback here ignores (`walk1` returns at once, walk.go:87). -/
def slots : Expr → List Expr
  | .file _ l => l
  | .dot _ x .. => [x]
  | .index _ x _ y _ => [x, y]
  | .keyValue _ k _ v => [k, v]
  | .slice _ x _ f _ t _ s _ => [x, f, t, s]
  | .paren _ _ x .. => [x]
  | .unary _ _ _ x => [x]
  | .binary _ x _ _ _ y => [x, y]
  | .assign _ x _ _ _ y => [x, y]
  | .lambda _ _ ps b => ps ++ b
  | .call _ x _ l .. => x :: l
  | .list _ _ l .. => l
  | .set _ _ l .. => l
  | .tuple _ _ _ l .. => l
  | .dict _ _ l .. => l
  | .compr _ _ _ b cl .. => b :: cl
  | .ifClause _ _ c => [c]
  | .forClause _ _ v _ x => [v, x]
  | .cond _ t _ te _ e => [t, te, e]
  | .load _ _ m f t .. => .string m :: interleave f t
  | .defS _ _ _ ps b .. => ps ++ b
  | .ifS _ _ c t _ f => c :: (t ++ f)
  | .forS _ _ v x b => v :: x :: b
  | .returnS _ _ r => [r]
  | .nil | .commentBlock .. | .ident .. | .typedIdent .. | .branch .. | .literal .. | .string .. => []

/-- the nodes of a list that are identifiers (`from.(*Ident)`; Go panics on anything else) (build/walk.go:111-227) -/
def identOf : Expr → IdentN
  | .ident n => n
  | _ => { name := [] }

/-- `module.(*StringExpr)`; Go panics on anything else (build/walk.go:111-227) -/
def stringOf : Expr → StringN
  | .string n => n
  | _ => { value := [] }

/-- even positions (the slots of a load statement, build/walk.go:111-227) -/
def evens {α} : List α → List α
  | [] => []
  | [x] => [x]
  | x :: _ :: l => x :: evens l

/-- odd positions (the slots of a load statement, build/walk.go:111-227) -/
def odds {α} : List α → List α
  | [] => []
  | [_] => []
  | _ :: y :: l => y :: odds l

/-- Writing back the slots after the callback has run on each (`f(&v.X)` updates `v.X` in place). Lists of the wrong
length cannot occur. (build/walk.go:111-227) -/
def withSlots (e : Expr) (k : List Expr) : Expr :=
  match e, k with
  | .file c _, k => .file c k
  | .dot c _ d n s, [x] => .dot c x d n s
  | .index c _ p _ e, [x, y] => .index c x p y e
  | .keyValue c _ p _, [a, b] => .keyValue c a p b
  | .slice c _ p _ c1 _ c2 _ e, [x, f, t, s] => .slice c x p f c1 t c2 s e
  | .paren c p _ e f, [x] => .paren c p x e f
  | .unary c p o _, [x] => .unary c p o x
  | .binary c _ p o l _, [x, y] => .binary c x p o l y
  | .assign c _ p o l _, [x, y] => .assign c x p o l y
  | .lambda c p ps _, k => .lambda c p (k.take ps.length) (k.drop ps.length)
  | .call c _ p _ e a b, x :: l => .call c x p l e a b
  | .list c p _ e f, k => .list c p k e f
  | .set c p _ e f, k => .set c p k e f
  | .tuple c n p _ e a b, k => .tuple c n p k e a b
  | .dict c p _ e f, k => .dict c p k e f
  | .compr c u p _ _ f e, b :: cl => .compr c u p b cl f e
  | .ifClause c p _, [x] => .ifClause c p x
  | .forClause c p _ q _, [v, x] => .forClause c p v q x
  | .cond c _ p _ q _, [t, te, e] => .cond c t p te q e
  | .load c p _ _ _ r fc, m :: ids =>
      .load c p (stringOf m) ((evens ids).map identOf) ((odds ids).map identOf) r fc
  | .defS c p n ps _ q a b t, k => .defS c p n (k.take ps.length) (k.drop ps.length) q a b t
  | .ifS c p _ t e _, x :: k => .ifS c p x (k.take t.length) e (k.drop t.length)
  | .forS c p _ _ _, v :: x :: b => .forS c p v x b
  | .returnS c p _, [r] => .returnS c p r
  | e, _ => e

mutual
/-- Number of constructors: the recursion budget of the traversals below (and nothing else). -/
def size : Expr → Nat
  | .nil => 1
  | .commentBlock .. => 1
  | .ident .. => 1
  | .typedIdent _ _ t => 1 + size t
  | .branch .. => 1
  | .literal .. => 1
  | .string .. => 1
  | .call _ x _ l .. => 1 + size x + sizeL l
  | .dot _ x .. => 1 + size x
  | .compr _ _ _ b cl .. => 1 + size b + sizeL cl
  | .forClause _ _ v _ x => 1 + size v + size x
  | .ifClause _ _ x => 1 + size x
  | .keyValue _ k _ v => 1 + size k + size v
  | .dict _ _ l .. => 1 + sizeL l
  | .list _ _ l .. => 1 + sizeL l
  | .set _ _ l .. => 1 + sizeL l
  | .tuple _ _ _ l .. => 1 + sizeL l
  | .unary _ _ _ x => 1 + size x
  | .binary _ x _ _ _ y => 1 + size x + size y
  | .assign _ x _ _ _ y => 1 + size x + size y
  | .paren _ _ x .. => 1 + size x
  | .slice _ x _ f _ t _ s _ => 1 + size x + size f + size t + size s
  | .index _ x _ y _ => 1 + size x + size y
  | .lambda _ _ ps b => 1 + sizeL ps + sizeL b
  | .cond _ t _ te _ e => 1 + size t + size te + size e
  | .load _ _ _ f t .. => 2 + f.length + t.length
  | .defS _ _ _ ps b _ _ _ t => 1 + sizeL ps + sizeL b + size t
  | .returnS _ _ r => 1 + size r
  | .forS _ _ v x b => 1 + size v + size x + sizeL b
  | .ifS _ _ c t _ f => 1 + size c + sizeL t + sizeL f
  | .file _ l => 1 + sizeL l
/-- number of constructors (no counterpart in Go) -/
def sizeL : List Expr → Nat
  | [] => 0
  | x :: l => size x + sizeL l
end

/-- build/walk.go:85-108 `walk1` with a callback that does not touch the tree (as used by `Walk`, walk.go:31-37, and
`WalkInterruptable`, walk.go:49-55). The callback may ask not to descend (`StopTraversalError`); any other error is ignored.
`n` is the recursion budget. -/
def walkN {σ : Type} (f : σ → Expr → List Expr → σ × Bool) : Nat → σ → Expr → List Expr → σ
  | 0, s, _, _ => s
  | n + 1, s, v, stk =>
    if v.isNil then s
    else
      let r := f s v stk
      if r.2 then r.1
      else (slots v).foldl (fun s x => walkN f n s x (stk ++ [v])) r.1

/-- build/walk.go:51-57 `WalkInterruptable` -/
def walkI {σ : Type} (f : σ → Expr → List Expr → σ × Bool) (s : σ) (v : Expr) : σ :=
  walkN f (size v) s v []

/-- build/walk.go:33-39 `Walk` -/
def walk {σ : Type} (f : σ → Expr → List Expr → σ) (s : σ) (v : Expr) : σ :=
  walkI (fun s x stk => (f s x stk, false)) s v

/-- Slots that `WalkOnce` copies before calling `f` (walk.go:166-170 dict entries, 171-175 comprehension clauses):
replacing them has no effect on the tree, while changes made inside them stay. -/
def weakSlots : Expr → List Bool
  | .dict _ _ l .. => l.map fun _ => true
  | .compr _ _ _ _ cl .. => false :: cl.map fun _ => true
  | e => (slots e).map fun _ => false

/-- walk.go:85-108 `walk1` with a callback that changes the tree. `f s v stk = (s', v', repl)`: the callback either
mutates the node in place (`repl = false`, `v'` the node after the mutation) or returns a new node (`repl = true`).
The traversal continues into the new node in both cases. The result says whether the slot was assigned (`*v = res`).
Ancestors on the stack are shown as they were when the traversal entered them. -/
def editN {σ : Type} (f : σ → Expr → List Expr → σ × Expr × Bool) :
    Nat → σ → Expr → List Expr → σ × Expr × Bool
  | 0, s, v, _ => (s, v, false)
  | n + 1, s, v, stk =>
    if v.isNil then (s, v, false)
    else
      let r := f s v stk
      let v1 := r.2.1
      let q := (slots v1).zip (weakSlots v1) |>.foldl (fun (acc : σ × List Expr) xw =>
          let t := editN f n acc.1 xw.1 (stk ++ [v1])
          (t.1, acc.2 ++ [if xw.2 && t.2.2 then xw.1 else t.2.1])) (r.1, [])
      (q.1, withSlots v1 q.2, r.2.2)

end Verif.Walk
