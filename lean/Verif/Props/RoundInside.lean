import Verif.Proofs.IxS
import Verif.Props.RoundComments
/-
C50 for files with comments in every place, inside expressions too.
-/
namespace Verif.Props.RoundInside
open Verif Verif.Syntax Verif.Lexer Verif.Print Verif.Round Verif.Props.Round Verif.Props.RoundComments

/-- **C50** With comments inside expressions: besides the comments on statements (as in `C50_comments`), any node of an expression may have comments at the end of its
line, and there may be comments before the elements of lists, sets, dictionaries and tuples in brackets, before arguments and parameters, before the symbols of `load`,
before an expression in parentheses, before the parts of a comprehension on several lines and before every closing bracket (`RoundI.OkStmtC`). What is printed is read back
as the same statements: no part of an expression is swallowed by a comment and no statement ends early. -/
theorem C50_inside (f : File) (ft : FileType) (out : Bytes) (hb : ComsOK f.comments.before) (ha : f.comments.after = []) (hok : ∀ s ∈ f.stmts, RoundI.OkStmtC s)
    (htt : ∀ s ∈ f.stmts, tupleTight s = true) (h : format f = some out) :
    ∃ fuel f', Comm.parseFile fuel ft out = some f' ∧ SameSL (stmtsOf f.stmts) (stmtsOf f'.stmts) := RoundI.readsI ft hb ha hok htt h

/-! ## A file with comments in such places -/

/-- a name with a comment before it and one at the end of its line -/
def ba (s b a : Bytes) : Expr := .ident { comments := { before := [com b], suffix := [com a] }, name := s }

/-- a closing bracket with a comment before it -/
def endC (b : Bytes) : EndN := { comments := { before := [com b] } }

def c2 (b a : Bytes) : Comments := { before := [com b], suffix := [com a] }

/-- a call with comments on its arguments -/
def call1 : Expr := .call (c2 b!"# call" b!"# end of call") (sfx b!"f" b!"# f") {}
  [ba b!"a" b!"# one" b!"# two",
   .assign (c2 b!"# three" b!"# four") (.ident { name := b!"n" }) {} b!"=" false
     (.list { suffix := [com b!"# list"] } {} [ba b!"b" b!"# b1" b!"# b2"] (endC b!"# end of list") true),
   .unary (c2 b!"# star" b!"# stars") {} b!"*" (sfx b!"c" b!"# rest")]
  (endC b!"# end of arguments") false true

/-- a function with comments on its parameters, on its type and in its body -/
def func : Expr := .defS (c2 b!"# def" b!"# end of def") {} b!"g"
  [ba b!"p" b!"# first" b!"# p", .assign (c2 b!"# second" b!"# d") (.ident { name := b!"q" }) {} b!"=" false (sfx b!"a" b!"# default")]
  [.assign {} (sfx b!"x" b!"# left") {} b!"=" false
     (.compr { suffix := [com b!"# compr"] } false {} (ba b!"a" b!"# elem" b!"# e2")
       [.forClause (c2 b!"# for" b!"# for2") {} (nm b!"a") {} (sfx b!"b" b!"# in"), .ifClause (c2 b!"# if" b!"# if2") {} (nm b!"c")] true (endC b!"# end of compr"))]
  {} false false .nil

def inside : File := { type := .default, comments := { before := [com b!"# top"] }, stmts := [call1, func] }


theorem co2 {b a : Bytes} (hb : ComOK (com b)) (ha : ComOK (com a)) : RoundI.CO (c2 b a) := ⟨one_ok hb, one_ok ha⟩
theorem cs1 {a : Bytes} (ha : ComOK (com a)) : RoundI.CO { suffix := [com a] } := ⟨none_ok, one_ok ha⟩
theorem cn0 : RoundI.CN {} := ⟨rfl, none_ok⟩

theorem ok_ba {s b a : Bytes} (hs : Name s) (hb : ComOK (com b)) (ha : ComOK (com a)) : RoundI.Ok (ba s b a) := .ident _ (co2 hb ha) hs
theorem ok_sfx {s a : Bytes} (hs : Name s) (ha : ComOK (com a)) : RoundI.OkN (sfx s a) := .mk _ (.ident _ (cs1 ha) hs) rfl
theorem ok_nm {s : Bytes} (hs : Name s) : RoundI.OkN (nm s) := .mk _ (.ident _ ⟨none_ok, none_ok⟩ hs) rfl

theorem name_n : Name b!"n" := ⟨110, [], rfl, by unfold Props.Lexer.wordByte; decide, by decide, (fun _ h => by cases h), by decide⟩
theorem name_x : Name b!"x" := ⟨120, [], rfl, by unfold Props.Lexer.wordByte; decide, by decide, (fun _ h => by cases h), by decide⟩
theorem name_g : Name b!"g" := ⟨103, [], rfl, by unfold Props.Lexer.wordByte; decide, by decide, (fun _ h => by cases h), by decide⟩
theorem name_p : Name b!"p" := ⟨112, [], rfl, by unfold Props.Lexer.wordByte; decide, by decide, (fun _ h => by cases h), by decide⟩
theorem name_q : Name b!"q" := ⟨113, [], rfl, by unfold Props.Lexer.wordByte; decide, by decide, (fun _ h => by cases h), by decide⟩

theorem ok_call1 : RoundI.Ok call1 := by
  refine .call _ _ _ _ _ _ _ (co2 ⟨_, rfl, by decide⟩ ⟨_, rfl, by decide⟩) (one_ok ⟨_, rfl, by decide⟩) (ok_sfx name_f ⟨_, rfl, by decide⟩) rfl ?_
  intro a ha
  rcases List.mem_cons.1 ha with rfl | ha
  · exact .plain _ (ok_ba name_a ⟨_, rfl, by decide⟩ ⟨_, rfl, by decide⟩)
  rcases List.mem_cons.1 ha with rfl | ha
  · refine .named _ _ _ _ _ (co2 ⟨_, rfl, by decide⟩ ⟨_, rfl, by decide⟩) cn0 name_n (.mk _ (.list _ _ _ _ _ (cs1 ⟨_, rfl, by decide⟩) (one_ok ⟨_, rfl, by decide⟩) ?_) rfl)
    intro a ha
    rw [List.mem_singleton.1 ha]
    exact ok_ba name_b ⟨_, rfl, by decide⟩ ⟨_, rfl, by decide⟩
  rw [List.mem_singleton.1 ha]
  exact .star _ _ _ (co2 ⟨_, rfl, by decide⟩ ⟨_, rfl, by decide⟩) (ok_sfx name_c ⟨_, rfl, by decide⟩)

theorem ok_func : RoundI.OkStmtC func := by
  refine .def_ _ _ _ _ _ _ _ _ _ ⟨one_ok ⟨_, rfl, by decide⟩, one_ok ⟨_, rfl, by decide⟩, none_ok⟩ name_g ?_ (fun h => by cases h) (fun h => nomatch h) ?_
  · intro a ha
    rcases List.mem_cons.1 ha with rfl | ha
    · exact .plain _ _ (co2 ⟨_, rfl, by decide⟩ ⟨_, rfl, by decide⟩) name_p
    rw [List.mem_singleton.1 ha]
    exact .default _ _ _ _ _ _ (co2 ⟨_, rfl, by decide⟩ ⟨_, rfl, by decide⟩) cn0 name_q (ok_sfx name_a ⟨_, rfl, by decide⟩)
  · intro a ha
    rw [List.mem_singleton.1 ha]
    refine .simple _ (.assign _ _ _ _ _ _ (by decide) (.mk _ (.one _ (ok_sfx name_x ⟨_, rfl, by decide⟩).ok) rfl) (.mk _ (.one _ ?_) rfl)) ⟨none_ok, none_ok, none_ok⟩
    refine .listCompr _ _ _ _ _ _ (cs1 ⟨_, rfl, by decide⟩) (one_ok ⟨_, rfl, by decide⟩) (ok_ba name_a ⟨_, rfl, by decide⟩ ⟨_, rfl, by decide⟩) ?_ rfl rfl (.inl rfl)
    intro a ha
    rcases List.mem_cons.1 ha with rfl | ha
    · exact .for_ _ _ _ _ _ (co2 ⟨_, rfl, by decide⟩ ⟨_, rfl, by decide⟩) (.mk _ (.one _ (ok_nm name_a).ok rfl) rfl) (ok_sfx name_b ⟨_, rfl, by decide⟩) rfl
    rw [List.mem_singleton.1 ha]
    exact .if_ _ _ _ (co2 ⟨_, rfl, by decide⟩ ⟨_, rfl, by decide⟩) (ok_nm name_c) rfl

/-- the hypotheses of `C50_inside` hold -/
example : ComsOK inside.comments.before ∧ inside.comments.after = [] ∧ (∀ s ∈ inside.stmts, RoundI.OkStmtC s) ∧ (∀ s ∈ inside.stmts, tupleTight s = true) := by
  refine ⟨one_ok ⟨_, rfl, by decide⟩, rfl, ?_, by decide +kernel⟩
  intro s hs
  rcases List.mem_cons.1 hs with rfl | hs
  · exact .simple _ (.expr _ (.one _ ok_call1)) ⟨one_ok ⟨_, rfl, by decide⟩, one_ok ⟨_, rfl, by decide⟩, none_ok⟩
  rw [List.mem_singleton.1 hs]; exact ok_func

/-- its text -/
theorem C50_inside_witness : format inside = some (b!"# top\n# call\nf(\n    # f\n    # one\n    a,  # two\n    # three\n    n = [\n        # b1\n        b,  # b2\n        # end of list\n    ],  # list\n" ++
    b!"    # four\n    # star\n    *c  # rest\n    # stars\n    # end of arguments\n)  # end of call\n\n# def\ndef g(\n        # first\n        p,  # p\n        # second\n        q = a):  # default\n    # d\n" ++
    b!"    x = [  # left\n        # elem\n        a  # e2\n        # for\n        for a in b  # in\n        # for2\n        # if\n        if c  # if2\n        # end of compr\n    ]  # compr\n# end of def\n") := by
  decide +kernel

/-! ## Why comments before other nodes are left out -/

/-- a comment before a node that does not start a line -/
def before (e : Expr) : Expr := e.setComments { before := [com b!"# c"] }

/-- **C50** A comment before the right operand of an operator is printed on a line of its own, which ends the statement: the text is rejected; after `return` it is
read back as two statements. -/
theorem C50_comment_in_line :
    (format (one .default (bin (nm b!"a") b!"+" (before (nm b!"b")))) = some b!"a +\n# c\nb\n" ∧ ∀ fuel ft, Comm.parseFile fuel ft b!"a +\n# c\nb\n" = none) ∧
    (format (one .default (.returnS {} {} (before (nm b!"b")))) = some b!"return\n# c\nb\n" ∧
      (Comm.parseFile 400 .default b!"return\n# c\nb\n").map (fun f => f.stmts.length) = some 2) := by
  refine ⟨⟨by decide +kernel, rejected_parse (by decide +kernel)⟩, ⟨by decide +kernel, by decide +kernel⟩⟩

end Verif.Props.RoundInside
