import Verif.Model.SortStrings
/- Model of `reorderArguments` (/repo/build/rewrite.go:1351-1388). -/
namespace Verif.Rewrite
open Verif Verif.Syntax

/-- rewrite.go:1353-1366 `argumentType` -/
def argumentType : Expr → Nat
  | .unary _ _ op _ => if op = b!"**" then 4 else if op = b!"*" then 3 else 1
  | .assign .. => 2
  | _ => 1

/-- rewrite.go:1376-1383 `compare` -/
def argTypeLess (a b : Expr) : Bool :=
  if a.isNil || b.isNil then false else decide (argumentType a < argumentType b)

/-- rewrite.go:1384-1386: the argument list of one call. `sort.SliceStable` is modelled by a stable insertion sort. -/
def reorderArgs (l : List Expr) : List Expr :=
  if !isSorted argTypeLess l then sortBy argTypeLess l else l

end Verif.Rewrite
