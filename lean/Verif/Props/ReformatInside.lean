import Verif.Proofs.IxParsed
import Verif.Props.RoundInside
import Verif.Props.ReformatComments
/-
C49 for files with comments inside expressions.
-/
namespace Verif.Props.ReformatInside
open Verif Verif.Syntax Verif.Lexer Verif.Print Verif.Round Verif.Comm Verif.Props.Comments Verif.Props.Round Verif.RoundI

/-- **C49** A file with comments on statements and inside expressions (`inS`: comments before a part of an expression only where the part starts a line when it is
printed; comments at the end of a line anywhere except on the elements of tuples without parentheses) that can be parsed: if it is printed, the text parses, and the
statements are the same up to positions, layout, the spelling of string literals and added parentheses; comment blocks between statements do not count.

Missing for the full property: files with comments on lines of their own in the middle of a printed line (for some of them it is false:
`C49_loop_variable_comment`) and files whose last comment is left over at the end (`f.comments.after`: `C49_index_comment`); the last two conditions are those of
`C49_reformat_partial`. -/
theorem C49_inside_partial (fuel : Nat) (ft ft' : FileType) (data : Bytes) (f : File) (out : Bytes)
    (hparse : parseFile fuel ft data = some f) (hplaces : ∀ s ∈ f.stmts, inS s = true) (hne : ∀ c ∈ comF f, c.token ≠ []) (hafter : f.comments.after = [])
    (hback : data.getLast? ≠ some 92) (htight : ∀ s ∈ f.stmts, tupleTight s = true) (hprint : format f = some out) :
    ∃ fuel' f', parseFile fuel' ft' out = some f' ∧ SameSL (stmtsOf f.stmts) (stmtsOf f'.stmts) := by
  obtain ⟨h1, h2⟩ := parsed_inside hparse hback hplaces hne
  exact readsI ft' h1 hafter h2 htight hprint

/-! ## A file that meets the hypotheses -/

/-- badly laid out source with comments inside expressions -/
def source : Bytes := b!"# top\nload(':a.bzl', # file\n  # name\n  'f', # f\n  g = 'h' # h\n  # end\n)\n\n# lib\ncc_library( name='x', # name\n  # all sources\n  srcs = ['a', # a\n    # b\n    'b',\n    # no more\n  ]+glob(['c']), # glob\n  deps = {1:2, # two\n    # three\n    3:4},\n  # done\n) # library\n\ndef f(a, # first\n      # second\n      b = 1):\n  # body\n  x = (a # left\n    + b) # sum\n  return [y # each\n    # of\n    for y in x\n    # if\n    if y] # list\n"

/-- what it is formatted to -/
def target : Bytes := b!"# top\nload(\n    \":a.bzl\",  # file\n    # name\n    \"f\",  # f\n    g = \"h\",  # h\n    # end\n)\n\n# lib\ncc_library(\n    name = \"x\",  # name\n    # all sources\n    srcs = [\n        \"a\",  # a\n        # b\n        \"b\",\n        # no more\n    ] + glob([\"c\"]),  # glob\n    deps = {\n        1: 2,  # two\n        # three\n        3: 4,\n    },\n    # done\n)  # library\n\ndef f(\n        a,  # first\n        # second\n        b = 1):\n    # body\n    x = (a +  # left\n         b)  # sum\n    return [\n        y  # each\n        # of\n        for y in x\n        # if\n        if y\n    ]  # list\n"

/-- the hypotheses of `C49_inside_partial` hold for it -/
example : ∃ f, parseFile 5000 .default source = some f ∧ (∀ s ∈ f.stmts, inS s = true) ∧ (∀ c ∈ comF f, c.token ≠ []) ∧ f.comments.after = [] ∧
    source.getLast? ≠ some 92 ∧ (∀ s ∈ f.stmts, tupleTight s = true) ∧ format f = some target := by
  have h : ((parseFile 5000 .default source).map (fun f => (f.stmts.all inS && (comF f).all (fun c => c.token != []) && f.comments.after.isEmpty && f.stmts.all tupleTight, format f))) =
      some (true, some target) := by decide +kernel
  cases hp : parseFile 5000 .default source with
  | none => rw [hp] at h; cases h
  | some f =>
    rw [hp] at h
    simp only [Option.map_some, Option.some.injEq, Prod.mk.injEq, Bool.and_eq_true, List.all_eq_true, bne_iff_ne, List.isEmpty_iff] at h
    exact ⟨f, rfl, h.1.1.1.1, h.1.1.1.2, h.1.1.2, by decide +kernel, h.1.2, h.2⟩

end Verif.Props.ReformatInside
