import Verif.Basic
/-
Model of Go's `sort` package and of string comparison.

`sort.Sort` is not stable and its algorithm is not part of its contract: it returns a permutation of its input
in which no element is `Less` than an earlier one (`SortedPerm`), provided `Less` is a strict weak order.
The executable model uses insertion sort; theorems that matter are stated for every `SortedPerm`.
-/
namespace Verif

/-- Go's `<` on strings: bytewise lexicographic, generic in the element comparison. -/
def lexLess {α : Type} [DecidableEq α] (lt : α → α → Bool) : List α → List α → Bool
  | [], [] => false
  | [], _ :: _ => true
  | _ :: _, [] => false
  | x :: xs, y :: ys => if x = y then lexLess lt xs ys else lt x y

/-- Go's `<` on strings. -/
def strLess (a b : Bytes) : Bool := lexLess (fun x y => decide (x < y)) a b

/-- No element is less than an earlier one: what `sort.Sort` guarantees (and, for a strict weak order, equivalent to
`sort.IsSorted`'s adjacent check). -/
def Sorted {α : Type} (less : α → α → Bool) (l : List α) : Prop := l.Pairwise (fun a b => less b a = false)

/-- Every result `sort.Sort` may return. -/
def SortedPerm {α : Type} (less : α → α → Bool) (l l' : List α) : Prop := l'.Perm l ∧ Sorted less l'

/-- Go `sort.IsSorted`: adjacent elements only. -/
def isSorted {α : Type} (less : α → α → Bool) : List α → Bool
  | [] => true
  | [_] => true
  | a :: b :: l => !less b a && isSorted less (b :: l)

/-- insertion into a sorted list, before the first element that is greater (so equal elements keep their order) -/
def insertBy {α : Type} (less : α → α → Bool) (x : α) : List α → List α
  | [] => [x]
  | y :: l => if less y x then y :: insertBy less x l else x :: y :: l

/-- Executable stand-in for `sort.Sort`, and model of `sort.Stable`: insertion sort is stable, and a stable sort is unique. -/
def sortBy {α : Type} (less : α → α → Bool) : List α → List α
  | [] => []
  | x :: l => insertBy less x (sortBy less l)

/-- strict total order up to `key`: distinct keys are comparable -/
structure TotalBy {α κ : Type} (key : α → κ) (less : α → α → Bool) : Prop where
  irrefl : ∀ a, less a a = false
  trans : ∀ a b c, less a b = true → less b c = true → less a c = true
  total : ∀ a b, key a ≠ key b → less a b = true ∨ less b a = true

/-- strict weak order: irreflexive, transitive, and incomparability is transitive -/
structure StrictWeak {α : Type} (less : α → α → Bool) : Prop where
  irrefl : ∀ a, less a a = false
  trans : ∀ a b c, less a b = true → less b c = true → less a c = true
  incomp : ∀ a b c, less a b = false → less b a = false → less b c = false → less c b = false →
    less a c = false ∧ less c a = false

end Verif
