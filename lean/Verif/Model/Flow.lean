import Verif.Model.Syntax
/-
Model of the control-flow warnings in /repo/warn/warn_control_flow.go (unreachable statements and missing return values) and of
`WalkStatements` (/repo/build/walk.go).

Nodes are identified by their path from the root: `k, i` means "statement `i` of statement list `k`"; a `def` and a `for` have one list (0), an `if` has
two (0 and 1), the file has one. The findings of the code carry the span and a message; here they carry the path of the node.
-/
namespace Verif.Flow
open Verif Verif.Syntax

/-- a position in a tree of statements (the stack of build/walk.go:230-271) -/
abbrev Path := List Nat

mutual
/-- build/walk.go:230-271 `walkStatements`: the visited nodes in order, with their paths and stacks. `stop stack node` says
whether the callback returns StopTraversalError. Paths are relative to the node. -/
def walkSt (stop : List Expr → Expr → Bool) (stack : List Expr) : Expr → List (Path × List Expr × Expr)
  | .nil => []
  | .file c l =>
    let v := Expr.file c l
    ([], stack, v) :: (if stop stack v then [] else (walkStL stop (stack ++ [v]) 0 l).map (fun x => (0 :: x.1, x.2)))
  | .defS c p n ps l cp fc fm t =>
    let v := Expr.defS c p n ps l cp fc fm t
    ([], stack, v) :: (if stop stack v then [] else (walkStL stop (stack ++ [v]) 0 l).map (fun x => (0 :: x.1, x.2)))
  | .ifS c p cd l e l' =>
    let v := Expr.ifS c p cd l e l'
    ([], stack, v) :: (if stop stack v then [] else (walkStL stop (stack ++ [v]) 0 l).map (fun x => (0 :: x.1, x.2)) ++
      (walkStL stop (stack ++ [v]) 0 l').map (fun x => (1 :: x.1, x.2)))
  | .forS c p vs x l =>
    let v := Expr.forS c p vs x l
    ([], stack, v) :: (if stop stack v then [] else (walkStL stop (stack ++ [v]) 0 l).map (fun x => (0 :: x.1, x.2)))
  | v => [([], stack, v)]
/-- the loops over statement lists in build/walk.go:249-267 -/
def walkStL (stop : List Expr → Expr → Bool) (stack : List Expr) (i : Nat) : List Expr → List (Path × List Expr × Expr)
  | [] => []
  | s :: l => (walkSt stop stack s).map (fun x => (i :: x.1, x.2)) ++ walkStL stop stack (i + 1) l
end

/-- `stmt` is a call of the identifier `fail` (warn_control_flow.go:47-51 and 127-131) -/
def isFail : Expr → Bool
  | .call _ (.ident n) .. => n.name == b!"fail"
  | _ => false

mutual
/-- warn/warn_control_flow.go:117-149 `findUnreachableStatements`: one round of the loop for a statement that is not known to be unreachable. Gives
the paths passed to the callback and whether the next statement is unreachable. -/
def unreach1 : Expr → List Path × Bool
  | .returnS .. => ([], true)
  | .call c x s l e a b => ([], isFail (.call c x s l e a b))
  | .branch _ tok _ => ([], tok != b!"pass")
  | .forS _ _ _ _ body => ((unreachL 0 false body).1.map (0 :: ·), false)
  | .ifS _ _ _ t _ f =>
    let r1 := unreachL 0 false t
    let r2 := unreachL 0 false f
    (r1.1.map (0 :: ·) ++ r2.1.map (1 :: ·), r1.2 && r2.2)
  | _ => ([], false)
/-- warn/warn_control_flow.go:117-149 `findUnreachableStatements`, from statement number `i` on with the current value `u` of `unreachable` -/
def unreachL (i : Nat) (u : Bool) : List Expr → List Path × Bool
  | [] => ([], u)
  | s :: l =>
    if u then ([[i]], true)
    else
      let r := unreach1 s
      let r' := unreachL (i + 1) r.2 l
      (r.1.map (i :: ·) ++ r'.1, r'.2)
end

/-- warn/warn_control_flow.go:151-166 `unreachableStatementWarning`: the paths of the reported statements -/
def unreachableWarning (f : Expr) : List Path :=
  (walkSt (fun _ _ => false) [] f).flatMap fun
    | (d, _, .defS _ _ _ _ body _ _ _ _) => (unreachL 0 false body).1.map (fun q => d ++ 0 :: q)
    | _ => []

mutual
/-- warn/warn_control_flow.go:33-67 `findReturnsWithoutValue`: one round of the loop. Gives the paths passed to the callback and whether `terminated` is
set. -/
def returns1 : Expr → List Path × Bool
  | .returnS _ _ .nil => ([[]], true)
  | .returnS .. => ([], true)
  | .call c x s l e a b => ([], isFail (.call c x s l e a b))
  | .forS _ _ _ _ body => ((returnsL 0 body).1.map (0 :: ·), false)
  | .ifS _ _ _ t _ f =>
    let r1 := returnsL 0 t
    let r2 := returnsL 0 f
    (r1.1.map (0 :: ·) ++ r2.1.map (1 :: ·), r1.2 && r2.2)
  | _ => ([], false)
/-- warn/warn_control_flow.go:33-67 `findReturnsWithoutValue`, from statement number `i` on -/
def returnsL (i : Nat) : List Expr → List Path × Bool
  | [] => ([], false)
  | s :: l =>
    let r := returns1 s
    let r' := returnsL (i + 1) l
    (r.1.map (i :: ·) ++ r'.1, r.2 || r'.2)
end

/-- is a `def` (warn/warn_control_flow.go:33-111) -/
def isDefStmt : Expr → Bool
  | .defS .. => true
  | _ => false

/-- is a `return` with a value (warn/warn_control_flow.go:33-111) -/
def isValueReturn : Expr → Bool
  | .returnS _ _ .nil => false
  | .returnS .. => true
  | _ => false

/-- warn/warn_control_flow.go:83-95: whether the function has a return with a value, not counting nested functions -/
def hasValueReturn (function : Expr) : Bool :=
  (walkSt (fun stack x => isDefStmt x && decide (stack.length > 0)) [] function).any (fun x => isValueReturn x.2.2)

/-- What `missingReturnValueWarning` reports: a `return` without a value in a function, or the function itself ("may terminate by an
implicit return in the end"). (warn/warn_control_flow.go:33-111) -/
inductive Missing where
  | bareReturn (function stmt : Path)
  | implicitReturn (function : Path)
deriving DecidableEq, Repr

/-- warn/warn_control_flow.go:70-111 `missingReturnValueWarning` -/
def missingReturn (f : Expr) : List Missing :=
  (walkSt (fun _ _ => false) [] f).flatMap fun
    | (d, _, .defS c p n ps body cp fc fm t) =>
      if hasValueReturn (.defS c p n ps body cp fc fm t) then
        let r := returnsL 0 body
        r.1.map (Missing.bareReturn d) ++ (if r.2 then [] else [.implicitReturn d])
      else []
    | _ => []

end Verif.Flow
