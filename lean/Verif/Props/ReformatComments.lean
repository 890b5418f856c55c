import Verif.Proofs.ParsedPlaces
import Verif.Props.RoundComments
import Verif.Props.Reformat
/-
C49 for files with comments.
-/
namespace Verif.Props.ReformatComments
open Verif Verif.Syntax Verif.Lexer Verif.Print Verif.Round Verif.Comm Verif.Props.Comments Verif.Props.Round

/-- **C49** A file with comments on statements (`onStmts`: comments on lines of their own, at the end of statements, at the end of the lines of `if`, `elif`, `else`
and `for`) that can be parsed: if it is printed, the text parses, and the statements are the same up to positions, layout, the spelling of string literals and
added parentheses; comment blocks between statements do not count.

Missing for the full property: files with comments inside expressions (`C49_inside_partial`; for some of them it is false: `C49_loop_variable_comment`) and files
whose last comment is left over at the end (`f.comments.after`); the last two conditions are those of `C49_reformat_partial`. -/
theorem C49_comments_partial (fuel : Nat) (ft ft' : FileType) (data : Bytes) (f : File) (out : Bytes)
    (hparse : parseFile fuel ft data = some f) (hplaces : ∀ s ∈ f.stmts, onStmts s = true) (hne : ∀ c ∈ comF f, c.token ≠ []) (hafter : f.comments.after = [])
    (hback : data.getLast? ≠ some 92) (htight : ∀ s ∈ f.stmts, tupleTight s = true) (hprint : format f = some out) :
    ∃ fuel' f', parseFile fuel' ft' out = some f' ∧ SameSL (stmtsOf f.stmts) (stmtsOf f'.stmts) := by
  obtain ⟨h1, h2⟩ := parsed_places hparse hback hplaces hne
  exact readsC ft' h1 hafter h2 htight hprint

/-! ## A file that meets the hypotheses -/

/-- badly laid out source with comments -/
def source : Bytes := b!"# top\n\n# load\nload(':a.bzl', 'f') # f\n# rest\n\n# lone\n\ndef f(a,b): \n  # start\n\n  # for\n  for i in a : # loop\n    if i: # i\n      pass;return  # done\n      # end of if\n    elif b: # elif\n     return 1\n    else:\n       # in else\n       x=(1,\n   2) # x\n    # after\n  # end\n# g\ng( a = 1) # call\n"

/-- what it is formatted to -/
def target : Bytes := b!"# top\n\n# load\nload(\":a.bzl\", \"f\")  # f\n# rest\n\n# lone\n\ndef f(a, b):\n    # start\n\n    # for\n    for i in a:  # loop\n        if i:  # i\n            pass\n            return  # done\n            # end of if\n\n        elif b:  # elif\n            return 1\n        else:\n            # in else\n            x = (\n                1,\n                2,\n            )  # x\n\n        # after\n\n    # end\n\n# g\ng(a = 1)  # call\n"

/-- the hypotheses of `C49_comments_partial` hold for it -/
example : ∃ f, parseFile 3000 .default source = some f ∧ (∀ s ∈ f.stmts, onStmts s = true) ∧ (∀ c ∈ comF f, c.token ≠ []) ∧ f.comments.after = [] ∧
    source.getLast? ≠ some 92 ∧ (∀ s ∈ f.stmts, tupleTight s = true) ∧ format f = some target := by
  have h : ((parseFile 3000 .default source).map (fun f => (f.stmts.all onStmts && (comF f).all (fun c => c.token != []) && f.comments.after.isEmpty && f.stmts.all tupleTight, format f))) =
      some (true, some target) := by decide +kernel
  cases hp : parseFile 3000 .default source with
  | none => rw [hp] at h; cases h
  | some f =>
    rw [hp] at h
    simp only [Option.map_some, Option.some.injEq, Prod.mk.injEq, Bool.and_eq_true, List.all_eq_true, bne_iff_ne, List.isEmpty_iff] at h
    exact ⟨f, rfl, h.1.1.1.1, h.1.1.1.2, h.1.1.2, by decide +kernel, h.1.2, h.2⟩

/-! ## A comment that is left over -/

/-- **C49** A comment inside the brackets of an index expression at the end of a file is printed directly after it; formatting the result again changes it. -/
theorem C49_index_comment : (parseFile 400 .default b!"a[b\n# c\n]\n").bind format = some b!"a[b]# c\n" ∧
    (parseFile 400 .default b!"a[b]# c\n").bind format = some b!"a[b]  # c\n" := ⟨by decide +kernel, by decide +kernel⟩

end Verif.Props.ReformatComments
