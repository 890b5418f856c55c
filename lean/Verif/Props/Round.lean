import Verif.Proofs.RoundFile
import Verif.Props.Printed
/-
C50: a printed tree is read back as the same tree.
-/
namespace Verif.Props.Round
open Verif Verif.Syntax Verif.Lexer Verif.Print Verif.Round

/-- **C50** Every tree of printable expressions and statements (`OkStmt`; parsed or made by a tool) without comments is read back as the same tree, up to
positions, layout, the spelling of string literals and added parentheses. -/
theorem C50_read_back (f : File) (ft : FileType) (out : Bytes) (hc : f.comments = {}) (hok : ∀ s ∈ f.stmts, OkStmt s) (htt : ∀ s ∈ f.stmts, tupleTight s = true)
    (h : format f = some out) : ∃ fuel f', Comm.parseFile fuel ft out = some f' ∧ SameL f.stmts f'.stmts := reads ft hc hok htt h

/-- **C50** For an expression: also the text of the expression alone, on a line of its own, is read back. -/
theorem C50_expression (e : Expr) (ft : FileType) (out : Bytes) (hok : OkExpr e) (htt : tupleTight e = true)
    (h : format { type := ft, comments := {}, stmts := [e] } = some out) :
    ∃ fuel f' e', Comm.parseFile fuel ft out = some f' ∧ f'.stmts = [e'] ∧ Same e e' := by
  obtain ⟨n, f', h1, h2⟩ := C50_read_back _ ft out rfl (fun s hs => by rw [List.mem_singleton.1 hs]; exact .expr _ hok)
    (fun s hs => by rw [List.mem_singleton.1 hs]; exact htt) h
  have h2' : SameL [e] f'.stmts := h2
  generalize hs : f'.stmts = l at h2'
  cases h2' with
  | cons _ x' _ l' hx hl =>
    cases hl
    exact ⟨n, f', x', h1, hs, hx⟩

/-! ## A tree that needs parentheses -/

def nm (s : Bytes) : Expr := .ident { name := s }
def bin (x : Expr) (op : Bytes) (y : Expr) : Expr := .binary {} x {} op false y
def one (ft : FileType) (e : Expr) : File := { type := ft, comments := {}, stmts := [e] }

/-- `a * (b + c)`, where the parentheses are not in the tree -/
def product : Expr := bin (nm b!"a") b!"*" (bin (nm b!"b") b!"+" (nm b!"c"))

theorem name_a : Name b!"a" := ⟨97, [], rfl, by unfold Props.Lexer.wordByte; decide, by decide, (fun _ h => by cases h), by decide⟩
theorem name_b : Name b!"b" := ⟨98, [], rfl, by unfold Props.Lexer.wordByte; decide, by decide, (fun _ h => by cases h), by decide⟩
theorem name_c : Name b!"c" := ⟨99, [], rfl, by unfold Props.Lexer.wordByte; decide, by decide, (fun _ h => by cases h), by decide⟩

theorem ok_product : Ok product :=
  .binary _ _ _ _ _ (by decide) (.ident _ rfl name_a) rfl (.binary _ _ _ _ _ (by decide) (.ident _ rfl name_b) rfl (.ident _ rfl name_c) rfl) rfl

/-- the hypotheses of `C50_read_back` hold -/
example : (∀ s ∈ (one .build product).stmts, OkStmt s) ∧ (∀ s ∈ (one .build product).stmts, tupleTight s = true) ∧
    format (one .build product) = some b!"a * (b + c)\n" := by
  refine ⟨fun s hs => ?_, fun s hs => ?_, by decide +kernel⟩
  · rw [List.mem_singleton.1 hs]; exact .expr _ (.one _ ok_product)
  · rw [List.mem_singleton.1 hs]; rfl

/-- a function with a loop, a condition and a tuple -/
def func : Expr :=
  .defS {} {} b!"f" [.ident { name := b!"a" }, .assign {} (nm b!"b") {} b!"=" false (.literal {} {} b!"1")]
    [.forS {} {} (.tuple {} true {} [nm b!"a", nm b!"b"] {} false false) (nm b!"c")
      [.ifS {} {} (.unary {} {} b!"not" (nm b!"a")) [.branch {} b!"continue" {}] {} [.returnS {} {} (nm b!"b")]]] {} false false .nil

theorem name_f : Name b!"f" := ⟨102, [], rfl, by unfold Props.Lexer.wordByte; decide, by decide, (fun _ h => by cases h), by decide⟩

example : OkStmt func ∧ tupleTight func = true ∧
    format (one .default func) = some b!"def f(a, b = 1):\n    for a, b in c:\n        if not a:\n            continue\n        else:\n            return b\n" := by
  refine ⟨?_, rfl, by decide +kernel⟩
  have oka : Ok (nm b!"a") := .ident _ rfl name_a
  have okb : Ok (nm b!"b") := .ident _ rfl name_b
  have okc : Ok (nm b!"c") := .ident _ rfl name_c
  refine .def_ _ _ _ _ _ _ _ _ name_f ?_ (fun h => by cases h) (by simp) ?_
  · intro a ha
    rcases List.mem_cons.1 ha with rfl | ha
    · exact .plain _ _ rfl name_a
    rcases List.mem_cons.1 ha with rfl | ha
    · exact .default _ _ _ _ _ rfl name_b (.int _ _ ⟨49, [], rfl, by decide, .nil _⟩)
    cases ha
  · intro s hs
    rw [List.mem_singleton.1 hs]
    refine .for_ _ _ _ _ (.tuple _ _ _ _ _ _ _ rfl ?_ ?_) (.one _ okc) (by simp) ?_
    · intro a ha
      rcases List.mem_cons.1 ha with rfl | ha
      · exact oka
      rcases List.mem_cons.1 ha with rfl | ha
      · exact okb
      cases ha
    · intro a ha
      rcases List.mem_cons.1 ha with rfl | ha
      · rfl
      rcases List.mem_cons.1 ha with rfl | ha
      · rfl
      cases ha
    · intro s hs
      rw [List.mem_singleton.1 hs]
      refine .if_ _ _ _ _ _ rfl (.one _ (.unary _ _ _ (by decide) oka rfl)) (by simp) ?_ ?_
      · intro s hs; rw [List.mem_singleton.1 hs]; exact .branch _ _ (by decide)
      · intro s hs; rw [List.mem_singleton.1 hs]; exact .return_ _ _ (fun _ => .one _ okb)

/-! ## Why the conditions are needed: trees whose text means something else, or nothing -/

/-- the first statement that is read back -/
def again (e : Expr) : Option Expr := (format (one .default e)).bind (fun out => (Comm.parseFile 400 .default out).bind (fun f => f.stmts.head?))

/-- the machine stops with an error -/
def fails : Nat → Parser.Cfg → Bool
  | 0, _ => false
  | n + 1, c =>
    match Parser.step c with
    | .next c' => fails n c'
    | .done _ => false
    | .error => true

theorem fails_run : ∀ (n : Nat) (c : Parser.Cfg), fails n c = true → ∀ m, Parser.run m c = none := by
  intro n
  induction n with
  | zero => intro c h; cases h
  | succ n ih =>
    intro c h m
    cases m with
    | zero => rfl
    | succ m =>
      unfold fails at h
      unfold Parser.run
      cases hs : Parser.step c with
      | next c' => rw [hs] at h; exact ih c' h m
      | done v => rw [hs] at h; cases h
      | error => rfl

/-- the text is rejected -/
def rejected (data : Bytes) : Bool :=
  match tokens data with
  | .ok ts _ => fails 400 (Parser.initCfg ts)
  | .error => true
  | .fuel => false

theorem rejected_parse {data : Bytes} (h : rejected data = true) (fuel : Nat) (ft : FileType) : Comm.parseFile fuel ft data = none := by
  unfold rejected at h
  unfold Comm.parseFile
  cases ht : tokens data with
  | ok ts st => rw [ht] at h; dsimp only; rw [fails_run _ _ h]
  | error => rfl
  | fuel => rfl

def cond : Expr := .cond {} (nm b!"a") {} (nm b!"b") {} (nm b!"c")
def lam : Expr := .lambda {} {} [] [nm b!"a"]

/-- **C50** A conditional as an operand gets no parentheses: `-(a if b else c)` is printed as `-a if b else c`. -/
theorem C50_conditional : format (one .default (.unary {} {} b!"-" cond)) = some b!"-a if b else c\n" ∧ (again (.unary {} {} b!"-" cond)).map isCond = some true := by
  refine ⟨by decide +kernel, by decide +kernel⟩

/-- **C50** Neither does a `lambda` before `is`: `(lambda: a) is b` is printed as `lambda: a is b`. -/
theorem C50_lambda_is : format (one .default (bin lam b!"is" (nm b!"b"))) = some b!"lambda: a is b\n" ∧ (again (bin lam b!"is" (nm b!"b"))).map isLambda = some true := by
  refine ⟨by decide +kernel, by decide +kernel⟩

/-- the operator and the right operand's operator -/
def opOf : Expr → Option Bytes
  | .binary _ _ _ op _ _ => some op
  | _ => none

/-- **C50** `a is (not b)` is printed as `a is not b`. -/
theorem C50_is_not : format (one .default (bin (nm b!"a") b!"is" (.unary {} {} b!"not" (nm b!"b")))) = some b!"a is not b\n" ∧
    (again (bin (nm b!"a") b!"is" (.unary {} {} b!"not" (nm b!"b")))).map opOf = some (some b!"is not") := by
  refine ⟨by decide +kernel, by decide +kernel⟩

/-- **C50** An attribute of an integer cannot be read back. -/
theorem C50_integer_dot : format (one .default (.dot {} (.literal {} {} b!"1") {} {} b!"real")) = some b!"1.real\n" ∧
    ∀ fuel ft, Comm.parseFile fuel ft b!"1.real\n" = none := by
  refine ⟨by decide +kernel, rejected_parse (by decide +kernel)⟩

/-- **C50** A line break in a tuple without parentheses: `a + \` and `b, c` on the next line is printed without the backslash and cannot be read back. -/
theorem C50_tuple_line_break : (Comm.parseFile 400 .default b!"x = a + \\\n    b, c\n").bind format = some b!"x = a +\n    b, c\n" ∧
    ∀ fuel ft, Comm.parseFile fuel ft b!"x = a +\n    b, c\n" = none := by
  refine ⟨by decide +kernel, rejected_parse (by decide +kernel)⟩

end Verif.Props.Round
