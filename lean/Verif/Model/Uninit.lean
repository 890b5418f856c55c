import Verif.Model.Walk
import Verif.Model.Bzlenv
import Verif.Model.Flow
/-
Model of the uninitialized-variable check (warn/warn_control_flow.go:693-913) and of `extractIdentsFromStmt` (229-393).

Go identifies AST nodes by their pointers (`lValues`, `blockedNodes`, `walkBlockList`, `used`): here a node is identified by its place in the tree, so
"mark a child, then skip it when the traversal gets there" is written as not going there. The `used` map is a list (its order is arbitrary in Go).
-/
namespace Verif.Uninit
open Verif Verif.Syntax Verif.Walk

/-- the variables of the for clauses of a comprehension (warn/warn_control_flow.go:329-338) -/
def clauseNames : List Expr → List Bytes
  | [] => []
  | .forClause _ _ v _ _ :: l => Bzlenv.lvalues v ++ clauseNames l
  | _ :: l => clauseNames l

mutual
/-- warn/warn_control_flow.go:239-393 `extractIdentsFromStmt`: the used identifiers of a node that is not the root. `sc`: the names of the
scopes around the node (366-374). `n` is the recursion budget. Such a node is part of an expression, so the cases for statements do not occur. -/
def outerN : Nat → List Bytes → Expr → List IdentN
  | 0, _, _ => []
  | _ + 1, sc, .ident i => if sc.contains i.name then [] else [i]
  | n + 1, sc, .assign _ _ _ _ _ r => outerN n sc r
  | n + 1, sc, .compr c cu lb b cl f e => (slots (.compr c cu lb b cl f e)).flatMap (outerN n (clauseNames cl ++ sc))
  | n + 1, sc, .lambda c p ps b => (slots (.lambda c p ps b)).flatMap (outerN n (Bzlenv.lvaluesL ps ++ sc))
  | n + 1, sc, e => (slots e).flatMap (outerN n sc)
/-- the same for the target of an assignment or the variables of a loop: assigned identifiers are taken out (warn/warn_control_flow.go:383-390) -/
def targetN : Nat → List Bytes → Expr → List IdentN
  | 0, _, _ => []
  | _ + 1, _, .ident _ => []
  | n + 1, sc, .tuple _ _ _ l _ _ _ => l.flatMap (targetN n sc)
  | n + 1, sc, .list _ _ l _ _ => l.flatMap (targetN n sc)
  | n + 1, sc, e => outerN n sc e
end

/-- warn/warn_control_flow.go:239-393 `extractIdentsFromStmt`: the used identifiers of a statement. The left hand side of an assignment
is looked at only at the root; statements inside the statement are not looked at. -/
def used : Expr → List IdentN
  | .assign _ l _ _ _ r => targetN (2 * size l) [] l ++ outerN (2 * size r) [] r
  | .forS _ _ v x _ => targetN (2 * size v) [] v ++ outerN (2 * size x) [] x
  | .ifS _ _ c _ _ _ => outerN (2 * size c) [] c
  | e => outerN (2 * size e) [] e

/-- The second traversal of `findUninitializedIdents` (warn/warn_control_flow.go:766-798) inside the header of a nested function: the first
traversal (738-757) has stopped there, so no names of keyword arguments are known. -/
def plainN : Nat → Expr → List IdentN
  | 0, _ => []
  | _ + 1, .ident i => [i]
  | n + 1, .compr c cu lb b cl f e => outerN n [] (.compr c cu lb b cl f e)
  | n + 1, .lambda c p ps b => outerN n [] (.lambda c p ps b)
  | n + 1, e => (slots e).flatMap (plainN n)

/-- a parameter of a nested function, without its own identifier (warn/warn_control_flow.go:744-748) -/
def paramN : Nat → Expr → List IdentN
  | 0, _ => []
  | _ + 1, .ident _ => []
  | _ + 1, .typedIdent _ _ _ => []
  | n + 1, .assign _ l _ _ _ r => paramN n l ++ plainN n r
  | n + 1, .unary _ _ _ x => paramN n x
  | n + 1, e => plainN n e

mutual
/-- warn/warn_control_flow.go:733-799 `findUninitializedIdents`: the identifiers for which the callback is called if they are not initialized -/
def readsN : Nat → Expr → List IdentN
  | 0, _ => []
  | _ + 1, .ident i => [i]
  | n + 1, .assign _ l _ _ _ r => placeN n l ++ readsN n r
  | n + 1, .defS _ _ _ ps _ _ _ _ _ => ps.flatMap (paramN n)
  | n + 1, .compr c cu lb b cl f e => outerN n [] (.compr c cu lb b cl f e)
  | n + 1, .lambda c p ps b => outerN n [] (.lambda c p ps b)
  | n + 1, e => (slots e).flatMap (readsN n)
/-- the left hand side of an assignment (or a keyword argument), without the assigned identifiers (warn/warn_control_flow.go:751-754) -/
def placeN : Nat → Expr → List IdentN
  | 0, _ => []
  | _ + 1, .ident _ => []
  | n + 1, .tuple _ _ _ l _ _ _ => l.flatMap (placeN n)
  | n + 1, .list _ _ l _ _ => l.flatMap (placeN n)
  | n + 1, e => readsN n e
end

/-- warn/warn_control_flow.go:733-799 `findUninitializedIdents` -/
def reads (e : Expr) : List IdentN := readsN (2 * size e) e

/-- warn/warn_control_flow.go:759-764 `callbackIfNeeded` for all identifiers read -/
def missing (init : List Bytes) (l : List IdentN) : List IdentN := l.filter fun i => !init.contains i.name

mutual
/-- warn/warn_control_flow.go:801-868: one statement. The identifiers reported, whether the block is terminated, and the variables
defined by the statement. -/
def uninit1 (init : List Bytes) : Expr → List IdentN × Bool × List Bytes
  | .call c x s l e a b =>
    if Flow.isFail (.call c x s l e a b) then ([], true, []) else (missing init (reads (.call c x s l e a b)), false, [])
  | .returnS c p r => (missing init (reads (.returnS c p r)), true, [])
  | .branch _ tok _ => ([], tok == b!"break" || tok == b!"continue", [])
  | .forS _ _ v x b => (missing init (reads x) ++ (uninitL (Bzlenv.lvalues v ++ init) [] b).1, false, [])
  | .ifS _ _ c t _ f =>
    let r1 := uninitL init [] t
    let r2 := uninitL init [] f
    let cb := missing init (reads c) ++ r1.1 ++ r2.1
    if r1.2.1 && r2.2.1 then (cb, true, [])
    else if r1.2.1 then (cb, false, r2.2.2)
    else if r2.2.1 then (cb, false, r1.2.2)
    else (cb, false, r1.2.2.filter fun n => r2.2.2.contains n)
  | .assign c l p op lb r => (missing init (reads (.assign c l p op lb r)), false, Bzlenv.lvalues l)
  | e => (missing init (reads e), false, [])
/-- warn/warn_control_flow.go:723-870 `findUninitializedVariables`, from the current statement on: `init` is `initialized`, `loc` is `locallyInitialized` -/
def uninitL (init loc : List Bytes) : List Expr → List IdentN × Bool × List Bytes
  | [] => ([], false, loc)
  | s :: l =>
    let r := uninit1 init s
    if r.2.1 then (r.1, true, loc)
    else
      let q := uninitL (r.2.2 ++ init) (r.2.2 ++ loc) l
      (r.1 ++ q.1, q.2)
end

mutual
/-- warn/warn_control_flow.go:695-714 `collectLocalVariables`: one statement -/
def locals1 : Expr → List Bytes
  | .forS _ _ v _ b => Bzlenv.lvalues v ++ localsL b
  | .ifS _ _ _ t _ f => localsL t ++ localsL f
  | .assign _ l _ _ _ _ => Bzlenv.lvalues l
  | _ => []
/-- warn/warn_control_flow.go:695-714 `collectLocalVariables` -/
def localsL : List Expr → List Bytes
  | [] => []
  | s :: l => locals1 s ++ localsL l
end

/-- warn/warn_control_flow.go:881-909: one function -/
def uninitDef (ps body : List Expr) : List IdentN :=
  (uninitL [] [] body).1.filter fun i => (localsL body).contains i.name && !(ps.any fun p => Bzlenv.paramName p == i.name && !(Bzlenv.paramName p).isEmpty)

/-- warn/warn_control_flow.go:873-913 `uninitializedVariableWarning`: the path of the function and the identifier -/
def uninitWarning (f : Expr) : List (Flow.Path × IdentN) :=
  (Flow.walkSt (fun _ _ => false) [] f).flatMap fun
    | (d, _, .defS _ _ _ ps body _ _ _ _) => (uninitDef ps body).map fun i => (d, i)
    | _ => []

end Verif.Uninit
