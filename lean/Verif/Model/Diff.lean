import Verif.Basic
/-
Model of /repo/warn/warn.go:379-427: `formatWithFix` and `calculateDifference`.
-/
namespace Verif.Diff
open Verif

/-- warn/warn.go:394-400: the number of leading bytes on which the two contents agree. -/
def commonPrefixLen : Bytes → Bytes → Nat
  | a :: as, b :: bs => if a ≠ b then 0 else commonPrefixLen as bs + 1
  | _, _ => 0

/-- warn/warn.go:402-409: the number of trailing bytes on which the two contents agree (the Go loop indexes
from the end; here the lists are reversed). -/
def commonSuffixLen (old new : Bytes) : Nat := commonPrefixLen old.reverse new.reverse

/-- warn/warn.go:393-425 `calculateDifference`: start, end, replacement. Go's `int` subtractions are never
negative here (see `C08`), so truncated subtraction is exact. -/
def calculateDifference (old new : Bytes) : Nat × Nat × Bytes :=
  let p := commonPrefixLen old new
  let s := commonSuffixLen old new
  let s := if p + s > old.length then old.length - p else s
  let s := if p + s > new.length then new.length - p else s
  (p, old.length - s, (new.drop p).take (new.length - s - p))

/-- A heap of expression slots: `*build.Expr` addresses to the expressions stored there. (warn/warn.go: the addresses held by replacements) -/
abbrev Heap (V : Type) := Nat → V

/-- `*addr = v` (warn/warn.go) -/
def Heap.set {V : Type} (h : Heap V) (addr : Nat) (v : V) : Heap V := fun a => if a = addr then v else h a

/-- warn/warn.go:381-386: the loop applying the replacements and registering deferred restores. The
result is the modified heap and the deferred restores, most recently registered first. -/
def applyFixes {V : Type} (h : Heap V) (defers : List (Nat × V)) : List (Nat × V) → Heap V × List (Nat × V)
  | [] => (h, defers)
  | (addr, new) :: rs => applyFixes (h.set addr new) ((addr, h addr) :: defers) rs

/-- Deferred functions run last-in first-out. (Go `defer`, used in warn/warn.go) -/
def runDefers {V : Type} (h : Heap V) : List (Nat × V) → Heap V
  | [] => h
  | (addr, old) :: ds => runDefers (h.set addr old) ds

/-- warn/warn.go:380-389 `formatWithFix`. `format` is `build.Format`: it returns the text and may also rewrite
the heap (it runs the rewriter in place). -/
def formatWithFix {V : Type} (format : Heap V → Bytes × Heap V) (h : Heap V) (replacements : List (Nat × V)) :
    Bytes × Heap V :=
  let (h1, defers) := applyFixes h [] replacements
  let (out, h2) := format h1
  (out, runDefers h2 defers)

end Verif.Diff
