import Verif.Model.Strings
/-
Model of `formatString` (/repo/build/rewrite.go:1319-1349), used by `formatDocstrings`.
-/
namespace Verif.Rewrite
open Verif

/-- Go `strings.TrimRight(s, " ")` -/
def trimRightSp (s : Bytes) : Bytes := (s.reverse.dropWhile (· == c!" ")).reverse

/-- rewrite.go:1331-1336: remove up to `k` leading spaces; a line of at most `k` spaces and nothing else falls out of the
loop unchanged. -/
def dedentFrom (line : Bytes) : Nat → Bytes → Bytes
  | _, [] => line
  | 0, rest => rest
  | k + 1, c :: rest => if c ≠ c!" " then c :: rest else dedentFrom line k rest

/-- build/rewrite.go: the indentation removed by `formatDocstring` -/
def dedent (k : Nat) (line : Bytes) : Bytes := dedentFrom line k line

/-- rewrite.go:1328-1336: move a line from one indentation to another -/
def shiftLine (old new : Nat) (line : Bytes) : Bytes :=
  if new > old then List.replicate (new - old) c!" " ++ line else dedent (old - new) line

/-- rewrite.go:1323-1345: the lines after the first -/
def formatLines (old new : Nat) : List Bytes → List Bytes
  | [] => []
  | [l] => [shiftLine old new l]
  | l :: ls => trimRightSp (shiftLine old new l) :: formatLines old new ls

/-- rewrite.go:1319-1349 `formatString` -/
def formatString (value : Bytes) (old new : Nat) : Bytes :=
  match splitAll 10 value with
  | [] => []
  | l :: ls => joinWith 10 (l :: formatLines old new ls)

end Verif.Rewrite
