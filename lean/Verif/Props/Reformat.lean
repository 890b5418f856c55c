import Verif.Proofs.ParsedFile
import Verif.Props.Round
/-
C49: formatting a file does not change its syntax tree.
-/
namespace Verif.Props.Reformat
open Verif Verif.Syntax Verif.Lexer Verif.Print Verif.Round Verif.Comm Verif.Props.Comments Verif.Props.Round

/-- **C49** A file without comments that can be parsed: if it is printed, the text parses, and the tree is the same up to positions, layout, the spelling of
string literals and added parentheses.

Missing for the full property: files with comments, files whose last byte is a backslash (see `C49_trailing_backslash`), and files with a line break inside a
tuple without parentheses (`tupleTight`, see `C50_tuple_line_break`); for the last two it is false. -/
theorem C49_reformat_partial (fuel : Nat) (ft ft' : FileType) (data : Bytes) (f : File) (out : Bytes)
    (hparse : parseFile fuel ft data = some f) (hcom : comF f = []) (hback : data.getLast? ≠ some 92) (htight : ∀ s ∈ f.stmts, tupleTight s = true)
    (hprint : format f = some out) :
    ∃ fuel' f', parseFile fuel' ft' out = some f' ∧ SameL f.stmts f'.stmts := by
  obtain ⟨h1, h2⟩ := parsed_ok hparse hcom hback
  exact reads ft' h1 h2 htight hprint

/-- **C49** Every file without comments that can be parsed (and does not end with a backslash) is a tree to which `C50_read_back` applies: the exceptions of
`Ok` (a conditional as operand, `is not` made of `is` and `not`, ...) do not occur in it. -/
theorem C49_parsed_ok (fuel : Nat) (ft : FileType) (data : Bytes) (f : File) (hparse : parseFile fuel ft data = some f) (hcom : comF f = [])
    (hback : data.getLast? ≠ some 92) : f.comments = {} ∧ ∀ s ∈ f.stmts, OkStmt s := parsed_ok hparse hcom hback

/-! ## A file that meets the hypotheses -/

/-- badly laid out source -/
def source : Bytes := b!"load(':a.bzl', 'f',g  =  'h')\nx = [a*(b+c) if not d else (m.n),\n  lambda y, z=2: y[1:\n :z]]\n\n\n\ndef f(*, a=1, **kw):\n  for i,j in [(k, v) for k in l if k]:\n   if i is not j : pass; continue\n   elif x: return 1,2\n  return\n"

/-- what it is formatted to -/
def target : Bytes := b!"load(\":a.bzl\", \"f\", g = \"h\")\n\nx = [\n    a * (b + c) if not d else (m.n),\n    lambda y, z = 2: y[1::z],\n]\n\ndef f(*, a = 1, **kw):\n    for i, j in [(k, v) for k in l if k]:\n        if i is not j:\n            pass\n            continue\n        elif x:\n            return 1, 2\n    return\n"

/-- the hypotheses of `C49_reformat_partial` hold for it -/
example : ∃ f, parseFile 2000 .default source = some f ∧ comF f = [] ∧ source.getLast? ≠ some 92 ∧ (∀ s ∈ f.stmts, tupleTight s = true) ∧ format f = some target := by
  have h : ((parseFile 2000 .default source).map (fun f => (comF f, f.stmts.all tupleTight, format f))) = some ([], true, some target) := by decide +kernel
  cases hp : parseFile 2000 .default source with
  | none => rw [hp] at h; cases h
  | some f =>
    rw [hp] at h
    simp only [Option.map_some, Option.some.injEq, Prod.mk.injEq, List.all_eq_true] at h
    exact ⟨f, rfl, h.1, by decide +kernel, h.2.1, h.2.2⟩

/-! ## Where it fails -/

/-- **C49** A file that ends with a backslash after an indentation: the `if` statement gets an empty body and printing it crashes. -/
theorem C49_backslash_crash : (parseFile 400 .default b!"if x:\n  \\").isSome = true ∧ (parseFile 400 .default b!"if x:\n  \\").bind format = none := by
  refine ⟨by decide +kernel, by decide +kernel⟩

/-- **C49** A function with an empty body, made in the same way, is printed as a text that is rejected. -/
theorem C49_trailing_backslash : (parseFile 400 .default b!"def f():\n  \\").bind format = some b!"def f():\n\n" ∧
    ∀ fuel ft, parseFile fuel ft b!"def f():\n\n" = none := by
  refine ⟨by decide +kernel, rejected_parse (by decide +kernel)⟩

/-- **C49** With comments: a comment between the loop variables of a comprehension makes the printer write them on lines of their own, with a comma after the
last one, which is rejected. -/
theorem C49_loop_variable_comment : (parseFile 400 .default b!"[x for a, # k\n b in c]\n").bind format = some b!"[x for\n    a,  # k\n    b,\n in c]\n" ∧
    ∀ fuel ft, parseFile fuel ft b!"[x for\n    a,  # k\n    b,\n in c]\n" = none := by
  refine ⟨by decide +kernel, rejected_parse (by decide +kernel)⟩

end Verif.Props.Reformat
