import Verif.Proofs.NeatGive
import Verif.Proofs.Induct
import Verif.Proofs.FitStep
/-
Every production of the grammar builds neat values.
-/
set_option linter.unusedVariables false
set_option linter.unusedSimpArgs false
namespace Verif.Printed
open Verif Verif.Syntax Verif.Lexer Verif.Print Verif.Parser Verif.Grammar Verif.Props.Grammar Verif.Round Verif.Induct

/-- colons have positions -/
def ColonToks (ts : List Tok) : Prop := ∀ t ∈ ts, t.kind = ch ':' → t.pos.byte ≠ 0

theorem colonToks_cond : Cond ColonToks :=
  ⟨fun h t ht => h t (List.mem_append_left _ ht), fun h t ht => h t (List.mem_append_right _ ht)⟩

/-- neat, and no comments after it -/
def tidyE (x : Expr) : Bool := neat x && (afterC x).isEmpty

/-- what is true of the values of a class -/
def NQ : NT → List Tok → Val → Prop
  | .primaryExpr, _, v | .test, _, v | .number, _, v
  | .argument, _, v | .parameter, _, v | .parameterType, _, v | .expr, _, v | .keyvalue, _, v | .loopVars, _, v
  | .forClause, _, v | .smallStmt, _, v | .blockStmt, _, v | .ifChain, _, v | .ifElseBlock, _, v | .defHeader, _, v
  | .defHeaderTypeOpt, _, v | .exprOpt, _, v | .testOpt, _, v => tidyE v.expr = true
  | .string, _, v => ∃ n, v.expr = .string n ∧ n.comments.after = []
  | .ident, _, v => ∃ n, v.expr = .ident n ∧ n.comments.after = []
  | .loadArguments, _, v | .loadArgument, _, v => ∀ p ∈ v.loadargs, p.1.comments.after = [] ∧ p.2.comments.after = []
  | .argumentsOpt, _, v | .arguments, _, v | .parametersOpt, _, v | .parameters, _, v | .parametersTypeOpt, _, v | .parametersType, _, v
  | .testsOpt, _, v | .tests, _, v | .keyvaluesNoComma, _, v | .keyvalues, _, v | .forClauseWithIfClausesOpt, _, v | .forClausesWithIfClausesOpt, _, v
   => neatL v.exprs = true
  | .smallStmtsContinuation, _, v | .comments, _, v | .file, _, v | .simpleStmt, _, v | .stmt, _, v | .suite, _, v | .stmts, _, v => neatS v.exprs = true
  | .linebreaksOpt, _, _ | .elif_, _, _ | .semiOpt, _, _ | .commaOpt, _, _ | .commas, _, _ | .commasOpt, _, _ => True

/-- production `r` (from 0) preserves it -/
abbrev NStep (r : Nat) : Prop := GStep ColonToks NQ r

theorem neatL_append : ∀ a b : List Expr, neatL (a ++ b) = (neatL a && neatL b) := by
  intro a b
  induction a with
  | nil => simp [neatL]
  | cons x a ih => simp [neatL, ih, Bool.and_assoc]

theorem neatS_append : ∀ a b : List Expr, neatS (a ++ b) = (neatS a && neatS b) := by
  intro a b
  induction a with
  | nil => simp [neatS]
  | cons x a ih => simp [neatS, ih, Bool.and_assoc]

theorem neatL_nil : neatL [] = true := rfl
theorem neatS_nil : neatS [] = true := rfl
theorem neatL_cons (x : Expr) (l) : neatL (x :: l) = (tidyE x && neatL l) := rfl

theorem tidy_unary (c : Comments) (p : Pos) (op : Bytes) (x : Expr) : tidyE (.unary c p op x) = (tidyE x && c.after.isEmpty) := rfl
theorem tidy_mkUnary (p : Pos) (op : Bytes) (x : Expr) : tidyE (mkUnary p op x) = tidyE x := Bool.and_true _
theorem tidy_mkTyped (n : IdentN) (y : Expr) (h : n.comments.after = []) : tidyE (mkTyped (.ident n) y) = tidyE y := by
  show (n.comments.after.isEmpty && tidyE y && true) = _
  rw [h]; simp
theorem tidy_ident (n : IdentN) : tidyE (.ident n) = n.comments.after.isEmpty := rfl
theorem tidy_string (n : StringN) : tidyE (.string n) = n.comments.after.isEmpty := rfl
theorem tidy_nil : tidyE .nil = true := rfl

theorem tidy_mkBinary (x : Expr) (p : Pos) (op : Bytes) (y : Expr) : tidyE (mkBinary x p op y) = (tidyE x && tidyE y) := by
  unfold mkBinary
  dsimp only
  split <;> exact Bool.and_true _

theorem tidy_tupleAppend (x y : Expr) (hx : tidyE x = true) (hy : tidyE y = true) : tidyE (tupleAppend x y) = true := by
  unfold tupleAppend
  split
  · rename_i c s l e fc fm
    simp only [tidyE, neat, ac_tuple, neatL_append, neatL_cons, Bool.and_eq_true] at hx ⊢
    refine ⟨⟨⟨hx.1.1, ?_⟩, hx.1.2⟩, hx.2⟩
    exact ⟨Bool.and_eq_true_iff.1 hy, rfl⟩
  · simp only [tidyE, neat, neatL_cons, Bool.and_eq_true] at hx hy ⊢
    exact ⟨⟨⟨hx, hy, rfl⟩, rfl⟩, rfl⟩

theorem neat_setAfter (c : List Comment) (x : Expr) : neat (setAfter c x) = neat x := by cases x <;> rfl
theorem neat_setBefore (c : List Comment) (x : Expr) : neat (setBefore c x) = neat x := by cases x <;> rfl

theorem neatS_modLast (f : Expr → Expr) (hf : ∀ x, neat (f x) = neat x) : ∀ l, neatS (modLast f l) = neatS l
  | [] => rfl
  | [x] => by simp only [modLast, neatS, hf x]
  | x :: y :: l => by
    have := neatS_modLast f hf (y :: l)
    simp only [modLast, neatS] at this ⊢
    rw [this]

theorem neatS_modHead (f : Expr → Expr) (hf : ∀ x, neat (f x) = neat x) : ∀ l, neatS (modHead f l) = neatS l
  | [] => rfl
  | x :: l => by simp only [modHead, neatS, hf x]

theorem neatS_dropLast : ∀ l : List Expr, neatS l = true → neatS l.dropLast = true
  | [], _ => rfl
  | [x], _ => rfl
  | x :: y :: l, h => by
    have ih := neatS_dropLast (y :: l)
    simp only [neatS, Bool.and_eq_true, List.dropLast] at h ih ⊢
    exact ⟨h.1, ih h.2⟩

theorem tidy_branch (c p t) : tidyE (.branch c p t) = c.after.isEmpty := rfl
theorem tidy_literal (c p t) : tidyE (.literal c p t) = c.after.isEmpty := rfl
theorem tidy_dot (c x d p n) : tidyE (.dot c x d p n) = (tidyE x && c.after.isEmpty) := rfl
theorem tidy_call (c x p l e a b) : tidyE (.call c x p l e a b) = (tidyE x && neatL l && neatEnd e && c.after.isEmpty) := rfl
theorem tidy_compr (c a p x l b e) : tidyE (.compr c a p x l b e) = (tidyE x && neatL l && neatEnd e && c.after.isEmpty) := rfl
theorem tidy_forClause (c p v q x) : tidyE (.forClause c p v q x) = (tidyE v && tidyE x && c.after.isEmpty) := rfl
theorem tidy_ifClause (c p x) : tidyE (.ifClause c p x) = (tidyE x && c.after.isEmpty) := rfl
theorem tidy_keyValue (c k p v) : tidyE (.keyValue c k p v) = (tidyE k && tidyE v && c.after.isEmpty) := rfl
theorem tidy_dict (c p l e a) : tidyE (.dict c p l e a) = (neatL l && neatEnd e && c.after.isEmpty) := rfl
theorem tidy_list (c p l e a) : tidyE (.list c p l e a) = (neatL l && neatEnd e && c.after.isEmpty) := rfl
theorem tidy_set (c p l e a) : tidyE (.set c p l e a) = (neatL l && neatEnd e && c.after.isEmpty) := rfl
theorem tidy_slice (c x p f q t r s u) : tidyE (.slice c x p f q t r s u) = (tidyE x && tidyE f && tidyE t && tidyE s && (r.byte != 0 || s.isNil) && c.after.isEmpty) := rfl
theorem tidy_index (c x p y q) : tidyE (.index c x p y q) = (tidyE x && tidyE y && c.after.isEmpty) := rfl
theorem tidy_lambda (c p l b) : tidyE (.lambda c p l b) = (neatL l && neatL b && (b.length == 1) && c.after.isEmpty) := rfl
theorem tidy_cond (c t p te q e) : tidyE (.cond c t p te q e) = (tidyE t && tidyE te && tidyE e && c.after.isEmpty) := rfl
theorem tidy_def (c p n ps b q f g t) : tidyE (.defS c p n ps b q f g t) = (neatL ps && neatS b && tidyE t && c.after.isEmpty) := rfl
theorem tidy_return (c p r) : tidyE (.returnS c p r) = (tidyE r && c.after.isEmpty) := rfl
theorem tidy_for (c p v x b) : tidyE (.forS c p v x b) = (tidyE v && tidyE x && neatS b && c.after.isEmpty) := rfl
theorem tidy_if (c p x t e f) : tidyE (.ifS c p x t e f) = (c.suffix.isEmpty && tidyE x && neatS t && neatElse e f && neatS f && c.after.isEmpty) := rfl
theorem neatS_cons (x l) (h : tidyE x = true) : neatS (x :: l) = neatS l := by
  simp only [neatS, (Bool.and_eq_true_iff.1 h).1, Bool.true_and]

/-- closes the steps without case distinctions -/
macro "nauto" : tactic => `(tactic| (
  simp only [NQ, GSym] at *
  first
  | trivial
  | assumption
  | (simp_all [tidy_mkBinary, tidy_mkUnary, tidy_mkTyped, tidy_ident, tidy_string, tidy_nil, neatL_append, neatL_cons, neatS_append, neatS_cons, neatL_nil, neatS_nil, tidy_tupleAppend,
      asString, asIdent]; done)
  | (simp_all [neatL_append, neatS_append, neatL_cons, neatS_cons, neatL_nil, neatS_nil, neatEnd, neatElse, tidy_nil, tidy_ident, tidy_string, Expr.isNil,
    tidy_branch, tidy_literal, tidy_dot, tidy_call, tidy_compr, tidy_forClause, tidy_ifClause, tidy_keyValue, tidy_dict, tidy_list, tidy_set, tidy_slice, tidy_index, tidy_lambda, tidy_cond, tidy_def, tidy_return, tidy_for, tidy_if]; done)
  | skip))
