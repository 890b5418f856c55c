import Verif.Proofs.Again.File
import Verif.Proofs.Again.Forced
import Verif.Props.Reformat
/-
C70: formatting what has been formatted changes nothing.
-/
namespace Verif.Props.Again
open Verif Verif.Syntax Verif.Lexer Verif.Print Verif.Parser Verif.Round Verif.Comm Verif.Again Verif.Props.Comments Verif.Props.Grammar

theorem every_and (p q : Expr → Bool) (e : Expr) : every p e = true → every q e = true → every (fun x => p x && q x) e = true := by
  refine Expr.rec (motive_1 := fun e => every p e = true → every q e = true → every (fun x => p x && q x) e = true)
    (motive_2 := fun l => everyL p l = true → everyL q l = true → everyL (fun x => p x && q x) l = true) ?_ ?_ ?_ ?_ ?_ ?_ ?_ ?_ ?_ ?_ ?_ ?_ ?_ ?_ ?_ ?_ ?_ ?_ ?_ ?_ ?_ ?_ ?_ ?_ ?_ ?_ ?_ ?_ ?_ ?_ ?_ ?_ ?_ e
  all_goals intros; simp_all [every, everyL]


theorem everyL_mem' {p : Expr → Bool} {l : List Expr} (h : everyL p l = true) : ∀ a ∈ l, every p a = true := everyL_mem h

/-- what the parser forces onto one line is simple -/
theorem parsed_forced {fuel : Nat} {ft : FileType} {data : Bytes} {f : File} (h : parseFile fuel ft data = some f) (hc : comF f = []) :
    f.type = ft ∧ ∀ s ∈ f.stmts, every simpleForced s = true := by
  unfold parseFile at h
  cases ht : tokens data with
  | ok ts st =>
    rw [ht] at h
    dsimp only at h
    cases hr : run fuel (initCfg ts) with
    | none => rw [hr] at h; cases h
    | some l =>
      rw [hr] at h
      cases h
      have h3 := C46_assign l st.suffixComments st.lineComments
      have hc' : comC (assign l st.suffixComments st.lineComments).1 ++ comL (assign l st.suffixComments st.lineComments).2 = [] := hc
      rw [hc'] at h3
      have h4 := h3.symm.eq_nil
      simp only [List.append_eq_nil_iff] at h4
      obtain ⟨⟨h5, h6⟩, h7⟩ := h4
      obtain ⟨v, hv, rfl⟩ := (C62_iff data ts st l ht).1 ⟨fuel, hr⟩
      dsimp only
      rw [h6, h7, assign_id h5]
      exact ⟨rfl, everyL_mem (forced_deriv (C61_refines hv)).exprs⟩
  | _ => rw [ht] at h; cases h

/-- parsing has one result -/
theorem parse_unique {n m : Nat} {ft : FileType} {data : Bytes} {f g : File} (h1 : parseFile n ft data = some f) (h2 : parseFile m ft data = some g) : f = g := by
  have mono : ∀ {n m : Nat} {f : File}, n ≤ m → parseFile n ft data = some f → parseFile m ft data = some f := by
    intro n m f hnm h
    unfold parseFile at h ⊢
    cases ht : tokens data with
    | ok ts st =>
      rw [ht] at h
      dsimp only at h ⊢
      cases hr : run n (initCfg ts) with
      | none => rw [hr] at h; cases h
      | some l =>
        rw [hr] at h
        rw [run_mono hnm hr]
        exact h
    | _ => rw [ht] at h; cases h
  have a1 := mono (Nat.le_max_left n m) h1
  have a2 := mono (Nat.le_max_right n m) h2
  rw [a1] at a2
  exact Option.some.inj a2

/-- **C70** Formatting is idempotent: a file without comments is parsed and printed; then the printed text parses, its tree is the same up to layout, and
printing that tree gives the same text, byte for byte.

Missing for the full property: files with comments, and `MODULE.bazel` files (for which it is false, see `C70_module`). Excluded because it is false: a last
byte that is a backslash (`C49_trailing_backslash`), a line break in a tuple without parentheses (`C50_tuple_line_break`), and a load statement on one line whose
module is written with three quotes and a newline escape (`plainLoad`, see `C70_load`). -/
theorem C70_format_twice_partial (fuel : Nat) (ft : FileType) (data : Bytes) (f : File) (out : Bytes) (hft : ft ≠ .module)
    (hparse : parseFile fuel ft data = some f) (hcom : comF f = []) (hback : data.getLast? ≠ some 92) (htight : ∀ s ∈ f.stmts, tupleTight s = true)
    (hload : ∀ s ∈ f.stmts, every plainLoad s = true) (hprint : format f = some out) :
    (∃ fuel' f', parseFile fuel' ft out = some f' ∧ SameL f.stmts f'.stmts) ∧
    ∀ fuel' f', parseFile fuel' ft out = some f' → format f' = some out := by
  obtain ⟨h1, h2⟩ := parsed_ok hparse hcom hback
  obtain ⟨h3, h4⟩ := parsed_forced hparse hcom
  subst h3
  obtain ⟨n, f', e1, e2, e3⟩ := Verif.Again.reads hft h1 h2 (fun s hs => every_and _ _ s (h4 s hs) (hload s hs)) htight hprint
  refine ⟨⟨n, f', e1, e2⟩, fun m g hg => ?_⟩
  rw [parse_unique hg e1]
  exact e3

/-- **C70** The same for trees that are not the result of parsing (made by an edit, for instance), as long as what is marked to be kept on one line consists of
names, numbers and strings (`Fo`), and the tree can be written down at all (`OkStmt`). -/
theorem C70_tree_twice_partial (f : File) (out : Bytes) (hft : f.type ≠ .module) (hcom : f.comments = {}) (hok : ∀ s ∈ f.stmts, OkStmt s)
    (hforced : ∀ s ∈ f.stmts, every simpleForced s = true) (hload : ∀ s ∈ f.stmts, every plainLoad s = true) (htight : ∀ s ∈ f.stmts, tupleTight s = true)
    (hprint : format f = some out) : ∀ fuel' f', parseFile fuel' f.type out = some f' → format f' = some out := by
  obtain ⟨n, f', e1, _, e3⟩ := Verif.Again.reads hft hcom hok (fun s hs => every_and _ _ s (hforced s hs) (hload s hs)) htight hprint
  intro m g hg
  rw [parse_unique hg e1]
  exact e3

/-! ## A file that meets the hypotheses -/

open Verif.Props.Reformat (source target)

example : ∃ f, parseFile 2000 .default source = some f ∧ comF f = [] ∧ source.getLast? ≠ some 92 ∧ (∀ s ∈ f.stmts, tupleTight s = true) ∧
    (∀ s ∈ f.stmts, every plainLoad s = true) ∧ format f = some target := by
  have h : ((parseFile 2000 .default source).map (fun f => (comF f, f.stmts.all tupleTight, f.stmts.all (every plainLoad), format f))) = some ([], true, true, some target) := by
    decide +kernel
  cases hp : parseFile 2000 .default source with
  | none => rw [hp] at h; cases h
  | some f =>
    rw [hp] at h
    simp only [Option.map_some, Option.some.injEq, Prod.mk.injEq, List.all_eq_true] at h
    exact ⟨f, rfl, h.1, by decide +kernel, h.2.1, h.2.2.1, h.2.2.2⟩

/-- and the text changes, once -/
example : source ≠ target ∧ (parseFile 2000 .default target).bind format = some target := by
  refine ⟨by decide +kernel, by decide +kernel⟩

/-! ## Where it fails -/

/-- **C70** In a `MODULE.bazel` file a call of `use_extension` (or `use_repo`) that is written on one line is kept on one line, but a list in it is not; the
result is not on one line, so it is formatted differently the second time. -/
theorem C70_module :
    (parseFile 400 .module b!"use_extension(a, b = [1, 2])\n").bind format = some b!"use_extension(a, b = [\n    1,\n    2,\n])\n" ∧
    (parseFile 400 .module b!"use_extension(a, b = [\n    1,\n    2,\n])\n").bind format = some b!"use_extension(\n    a,\n    b = [\n        1,\n        2,\n    ],\n)\n" := by
  refine ⟨by decide +kernel, by decide +kernel⟩

/-- **C70** A load statement on one line whose module is written with three quotes and a newline escape. -/
theorem C70_load :
    (parseFile 400 .default b!"load('''a\\nb''', \"c\")\n").bind format = some b!"load(\"\"\"a\nb\"\"\", \"c\")\n" ∧
    (parseFile 400 .default b!"load(\"\"\"a\nb\"\"\", \"c\")\n").bind format = some b!"load(\n    \"\"\"a\nb\"\"\",\n    \"c\",\n)\n" := by
  refine ⟨by decide +kernel, by decide +kernel⟩

/-- **C70** With comments it is false: a comment line right after a function on one line is not separated from it the first time, and is separated by a blank line the
second time. -/
theorem C70_comment :
    (parseFile 400 .default b!"def f(): pass\n# c\n").bind format = some b!"def f():\n    pass\n# c\n" ∧
    (parseFile 400 .default b!"def f():\n    pass\n# c\n").bind format = some b!"def f():\n    pass\n\n# c\n" := by
  refine ⟨by decide +kernel, by decide +kernel⟩

end Verif.Props.Again
