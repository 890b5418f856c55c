import Verif.Proofs.RoundComm
import Verif.Props.Round
/-
C50 for files with comments.
-/
namespace Verif.Props.RoundComments
open Verif Verif.Syntax Verif.Lexer Verif.Print Verif.Round Verif.Props.Round

/-- **C50** With comments: a file with comments before its first statement, comments before, after and at the end of the line of every statement (at every
depth), comments at the end of the lines of `if`, `elif`, `else`, `for`, and comment blocks between statements. What is printed is read back as the same statements: no
statement is swallowed by a comment, none leaves or enters a block. -/
theorem C50_comments (f : File) (ft : FileType) (out : Bytes) (hb : ComsOK f.comments.before) (ha : f.comments.after = []) (hok : ∀ s ∈ f.stmts, OkStmtC s)
    (htt : ∀ s ∈ f.stmts, tupleTight s = true) (h : format f = some out) :
    ∃ fuel f', Comm.parseFile fuel ft out = some f' ∧ SameSL (stmtsOf f.stmts) (stmtsOf f'.stmts) := readsC ft hb ha hok htt h

/-! ## A file with comments in every place -/

/-- a comment -/
def com (s : Bytes) : Comment := { token := s }

/-- comments before, at the end of the line and after -/
def all3 : Comments := { before := [com b!"# b1", com b!"# b2"], suffix := [com b!"# s"], after := [com b!"# a"] }

/-- an expression with a comment at the end of the line -/
def sfx (s t : Bytes) : Expr := .ident { comments := { suffix := [com t] }, name := s }

/-- a comment on its own -/
def note (s : Bytes) : Expr := .commentBlock { after := [com s] } {}

/-- a loop with an `if`, a function and a call, all of them with comments -/
def loop : Expr :=
  .forS all3 {} (nm b!"a") (sfx b!"c" b!"# for")
    [note b!"# first",
     .ifS { before := [com b!"# if1"] } {} (sfx b!"a" b!"# if")
       [.branch { suffix := [com b!"# go on"] } b!"continue" {}, note b!"# in the block"]
       { comments := { suffix := [com b!"# else"] } }
       [note b!"# in else", .returnS all3 {} (nm b!"b")],
     note b!"# last"]

def commented : File := { type := .default, comments := { before := [com b!"#!top"] }, stmts := [note b!"# block", loop, (nm b!"c").setComments all3, note b!"# end"] }

theorem com_ok (s r : Bytes) (h : s = 35 :: r) (hn : 10 ∉ r) : ComOK (com s) := ⟨r, h, hn⟩

theorem one_ok {c : Comment} (h : ComOK c) : ComsOK [c] := fun x hx => by rw [List.mem_singleton.1 hx]; exact h

theorem all3_ok : NodeOK all3 := by
  refine ⟨?_, one_ok ⟨_, rfl, by decide⟩, one_ok ⟨_, rfl, by decide⟩⟩
  intro c hc
  rcases List.mem_cons.1 hc with rfl | hc
  · exact ⟨_, rfl, by decide⟩
  · rw [List.mem_singleton.1 hc]; exact ⟨_, rfl, by decide⟩

theorem none_ok : ComsOK [] := fun _ hc => nomatch hc

theorem note_ok (s r : Bytes) (h : s = 35 :: r) (hn : 10 ∉ r) : OkStmtC (note s) := .block _ _ rfl rfl (by simp) (one_ok ⟨r, h, hn⟩)

theorem ok_loop : OkStmtC loop := by
  have oka : Ok (nm b!"a") := .ident _ rfl name_a
  have okb : Ok (nm b!"b") := .ident _ rfl name_b
  have okc : Ok (nm b!"c") := .ident _ rfl name_c
  refine .for_ _ _ _ _ _ all3_ok (.one _ oka rfl) ⟨.one _ okc, rfl, one_ok ⟨_, rfl, by decide⟩⟩ (by decide +revert) ?_
  intro s hs
  rcases List.mem_cons.1 hs with rfl | hs
  · exact note_ok _ _ rfl (by decide)
  rcases List.mem_cons.1 hs with rfl | hs
  · refine .if_ _ _ _ _ _ _ ⟨one_ok ⟨_, rfl, by decide⟩, none_ok, none_ok⟩ ⟨.one _ oka, rfl, one_ok ⟨_, rfl, by decide⟩⟩ (one_ok ⟨_, rfl, by decide⟩)
      (fun h => nomatch h) ?_ (fun _ h => nomatch h) ?_
    · intro s hs
      rcases List.mem_cons.1 hs with rfl | hs
      · exact .simple _ rfl (.branch _ _ (by decide)) ⟨none_ok, one_ok ⟨_, rfl, by decide⟩, none_ok⟩
      rw [List.mem_singleton.1 hs]; exact note_ok _ _ rfl (by decide)
    · intro s hs
      rcases List.mem_cons.1 hs with rfl | hs
      · exact note_ok _ _ rfl (by decide)
      rw [List.mem_singleton.1 hs]
      exact .simple _ rfl (.return_ _ _ (fun _ => .one _ okb)) all3_ok
  rw [List.mem_singleton.1 hs]; exact note_ok _ _ rfl (by decide)

/-- the hypotheses of `C50_comments` hold -/
example : ComsOK commented.comments.before ∧ commented.comments.after = [] ∧ (∀ s ∈ commented.stmts, OkStmtC s) ∧ (∀ s ∈ commented.stmts, tupleTight s = true) := by
  refine ⟨one_ok ⟨_, rfl, by decide⟩, rfl, ?_, by decide +kernel⟩
  intro s hs
  rcases List.mem_cons.1 hs with rfl | hs
  · exact note_ok _ _ rfl (by decide)
  rcases List.mem_cons.1 hs with rfl | hs
  · exact ok_loop
  rcases List.mem_cons.1 hs with rfl | hs
  · exact .simple _ rfl (.expr _ (.one _ (.ident _ rfl name_c))) all3_ok
  rw [List.mem_singleton.1 hs]; exact note_ok _ _ rfl (by decide)

/-- its text; the comment at the end of the last line of the `for` loop ends up on the line of the comment block that closes its body -/
theorem C50_comments_witness : format commented = some (b!"#!top\n# block\n\n# b1\n# b2\nfor a in c:  # for\n    # first\n\n    # if1\n    if a:  # if\n        continue  # go on\n\n        # in the block\n" ++
    b!"    else:  # else\n        # in else\n\n        # b1\n        # b2\n        return b  # s\n        # a\n\n    # last  # s\n# a\n\n# b1\n# b2\nc  # s\n# a\n\n# end\n") := by
  decide +kernel

/-! ## Why the conditions are needed -/

/-- **C50** A comment whose text contains a line break becomes a statement, and a comment without `#` changes the statement. -/
theorem C50_bad_comments :
    (format { type := .default, comments := {}, stmts := [.ident { comments := { suffix := [com b!"# c\nd"] }, name := b!"x" }] } = some b!"x  # c\nd\n" ∧
      (Comm.parseFile 400 .default b!"x  # c\nd\n").map (fun f => f.stmts.length) = some 2) ∧
    (format { type := .default, comments := {}, stmts := [.ident { comments := { suffix := [com b!"+ y"] }, name := b!"x" }] } = some b!"x  + y\n" ∧
      ((Comm.parseFile 400 .default b!"x  + y\n").bind (fun f => f.stmts.head?)).map opOf = some (some b!"+")) := by
  refine ⟨⟨by decide +kernel, by decide +kernel⟩, ⟨by decide +kernel, by decide +kernel⟩⟩

/-- **C50** A block that consists of comments only cannot be read back. -/
theorem C50_empty_block : format { type := .default, comments := {}, stmts := [.forS {} {} (nm b!"a") (nm b!"c") [note b!"# later"]] } = some b!"for a in c:\n    # later\n" ∧
    ∀ fuel ft, Comm.parseFile fuel ft b!"for a in c:\n    # later\n" = none := by
  refine ⟨by decide +kernel, rejected_parse (by decide +kernel)⟩

end Verif.Props.RoundComments
