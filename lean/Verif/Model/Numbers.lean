import Verif.Model.Strings
import Verif.Model.Walk
/-
Model of the number rewrites of /repo/build/rewrite.go:1390-1432.
-/
namespace Verif.Rewrite
open Verif Verif.Syntax Verif.Walk

/-- rewrite.go:1398-1400: `editOctals` on one token -/
def editOctal (t : Bytes) : Bytes :=
  match t with
  | a :: b :: l => if a = c!"0" && c!"0" ≤ b && b ≤ c!"9" then c!"0" :: c!"o" :: b :: l else t
  | _ => t

/-- Go `strings.TrimLeft(s, "0+")` -/
def trimZeroPlus (s : Bytes) : Bytes := s.dropWhile fun c => c == c!"0" || c == c!"+"

/-- rewrite.go:1420-1430: the exponent part -/
def editExponent (t : Bytes) : Bytes :=
  if !(t.contains c!"e" || t.contains c!"E") then t
  else match split2 c!"e" t with
    | (m, some x) => m ++ c!"e" :: trimZeroPlus x
    | (_, none) => match split2 c!"E" t with
      | (m, some x) => m ++ c!"e" :: trimZeroPlus x
      | (_, none) => t

/-- rewrite.go:1414-1430: `editFloats` on one token -/
def editFloat (t : Bytes) : Bytes :=
  if !t.contains c!"." then t
  else editExponent (if hasPrefix t b!"." then c!"0" :: t else t)

/-- the literal case of the two callbacks (the callbacks of build/rewrite.go) -/
def mapLiteral (g : Bytes → Bytes) : Expr → Expr
  | .literal c p t => .literal c p (g t)
  | e => e

/-- Go `Walk(f, callback)` with a callback that changes nodes in place (build/walk.go:33-39) -/
def walkMut (g : Expr → List Expr → Expr) (v : Expr) : Expr :=
  (editN (fun (_ : Unit) x stk => ((), g x stk, false)) (size v) () v []).2.1

/-- rewrite.go:1392-1402 `editOctals` -/
def editOctals (e : Expr) : Expr := walkMut (fun x _ => mapLiteral editOctal x) e

/-- rewrite.go:1406-1432 `editFloats` -/
def editFloats (e : Expr) : Expr := walkMut (fun x _ => mapLiteral editFloat x) e

end Verif.Rewrite
