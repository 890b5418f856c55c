import Verif.Proofs.NeatGive
import Verif.Proofs.Induct
import Verif.Proofs.FitStep
/-
Every production of the grammar builds neat values.
-/
set_option linter.unusedVariables false
set_option linter.unusedSimpArgs false
namespace Verif.Printed
open Verif Verif.Syntax Verif.Lexer Verif.Print Verif.Parser Verif.Grammar Verif.Props.Grammar Verif.Round Verif.Induct

/-- colons have positions -/
def ColonToks (ts : List Tok) : Prop := ∀ t ∈ ts, t.kind = ch ':' → t.pos.byte ≠ 0

theorem colonToks_cond : Cond ColonToks :=
  ⟨fun h t ht => h t (List.mem_append_left _ ht), fun h t ht => h t (List.mem_append_right _ ht)⟩

/-- neat, and no comments after it -/
def tidyE (x : Expr) : Bool := neat x && (afterC x).isEmpty

/-- what is true of the values of a class -/
def NQ : NT → List Tok → Val → Prop
  | .primaryExpr, _, v | .test, _, v | .number, _, v
  | .argument, _, v | .parameter, _, v | .parameterType, _, v | .expr, _, v | .keyvalue, _, v | .loopVars, _, v
  | .forClause, _, v | .smallStmt, _, v | .blockStmt, _, v | .ifChain, _, v | .ifElseBlock, _, v | .defHeader, _, v
  | .defHeaderTypeOpt, _, v | .exprOpt, _, v | .testOpt, _, v => tidyE v.expr = true
  | .string, _, v => ∃ n, v.expr = .string n ∧ n.comments.after = []
  | .ident, _, v => ∃ n, v.expr = .ident n ∧ n.comments.after = []
  | .loadArguments, _, v | .loadArgument, _, v => ∀ p ∈ v.loadargs, p.1.comments.after = [] ∧ p.2.comments.after = []
  | .argumentsOpt, _, v | .arguments, _, v | .parametersOpt, _, v | .parameters, _, v | .parametersTypeOpt, _, v | .parametersType, _, v
  | .testsOpt, _, v | .tests, _, v | .keyvaluesNoComma, _, v | .keyvalues, _, v | .forClauseWithIfClausesOpt, _, v | .forClausesWithIfClausesOpt, _, v
   => neatL v.exprs = true
  | .smallStmtsContinuation, _, v | .comments, _, v | .file, _, v | .simpleStmt, _, v | .stmt, _, v | .suite, _, v | .stmts, _, v => neatS v.exprs = true
  | .linebreaksOpt, _, _ | .elif_, _, _ | .semiOpt, _, _ | .commaOpt, _, _ | .commas, _, _ | .commasOpt, _, _ => True

/-- production `r` (from 0) preserves it -/
abbrev NStep (r : Nat) : Prop := GStep ColonToks NQ r

theorem neatL_append : ∀ a b : List Expr, neatL (a ++ b) = (neatL a && neatL b) := by
  intro a b
  induction a with
  | nil => simp [neatL]
  | cons x a ih => simp [neatL, ih, Bool.and_assoc]

theorem neatS_append : ∀ a b : List Expr, neatS (a ++ b) = (neatS a && neatS b) := by
  intro a b
  induction a with
  | nil => simp [neatS]
  | cons x a ih => simp [neatS, ih, Bool.and_assoc]

theorem neatL_nil : neatL [] = true := rfl
theorem neatS_nil : neatS [] = true := rfl
theorem neatL_cons (x : Expr) (l) : neatL (x :: l) = (tidyE x && neatL l) := rfl

theorem tidy_unary (c : Comments) (p : Pos) (op : Bytes) (x : Expr) : tidyE (.unary c p op x) = (tidyE x && c.after.isEmpty) := rfl
theorem tidy_mkUnary (p : Pos) (op : Bytes) (x : Expr) : tidyE (mkUnary p op x) = tidyE x := Bool.and_true _
theorem tidy_mkTyped (n : IdentN) (y : Expr) (h : n.comments.after = []) : tidyE (mkTyped (.ident n) y) = tidyE y := by
  show (n.comments.after.isEmpty && tidyE y && true) = _
  rw [h]; simp
theorem tidy_ident (n : IdentN) : tidyE (.ident n) = n.comments.after.isEmpty := rfl
theorem tidy_string (n : StringN) : tidyE (.string n) = n.comments.after.isEmpty := rfl
theorem tidy_nil : tidyE .nil = true := rfl

theorem tidy_mkBinary (x : Expr) (p : Pos) (op : Bytes) (y : Expr) : tidyE (mkBinary x p op y) = (tidyE x && tidyE y) := by
  unfold mkBinary
  dsimp only
  split <;> exact Bool.and_true _

theorem tidy_tupleAppend (x y : Expr) (hx : tidyE x = true) (hy : tidyE y = true) : tidyE (tupleAppend x y) = true := by
  unfold tupleAppend
  split
  · rename_i c s l e fc fm
    simp only [tidyE, neat, ac_tuple, neatL_append, neatL_cons, Bool.and_eq_true] at hx ⊢
    refine ⟨⟨⟨hx.1.1, ?_⟩, hx.1.2⟩, hx.2⟩
    exact ⟨Bool.and_eq_true_iff.1 hy, rfl⟩
  · simp only [tidyE, neat, neatL_cons, Bool.and_eq_true] at hx hy ⊢
    exact ⟨⟨⟨hx, hy, rfl⟩, rfl⟩, rfl⟩

theorem neat_setAfter (c : List Comment) (x : Expr) : neat (setAfter c x) = neat x := by cases x <;> rfl
theorem neat_setBefore (c : List Comment) (x : Expr) : neat (setBefore c x) = neat x := by cases x <;> rfl

theorem neatS_modLast (f : Expr → Expr) (hf : ∀ x, neat (f x) = neat x) : ∀ l, neatS (modLast f l) = neatS l
  | [] => rfl
  | [x] => by simp only [modLast, neatS, hf x]
  | x :: y :: l => by
    have := neatS_modLast f hf (y :: l)
    simp only [modLast, neatS] at this ⊢
    rw [this]

theorem neatS_modHead (f : Expr → Expr) (hf : ∀ x, neat (f x) = neat x) : ∀ l, neatS (modHead f l) = neatS l
  | [] => rfl
  | x :: l => by simp only [modHead, neatS, hf x]

theorem neatS_dropLast : ∀ l : List Expr, neatS l = true → neatS l.dropLast = true
  | [], _ => rfl
  | [x], _ => rfl
  | x :: y :: l, h => by
    have ih := neatS_dropLast (y :: l)
    simp only [neatS, Bool.and_eq_true, List.dropLast] at h ih ⊢
    exact ⟨h.1, ih h.2⟩

theorem tidy_branch (c p t) : tidyE (.branch c p t) = c.after.isEmpty := rfl
theorem tidy_literal (c p t) : tidyE (.literal c p t) = c.after.isEmpty := rfl
theorem tidy_dot (c x d p n) : tidyE (.dot c x d p n) = (tidyE x && c.after.isEmpty) := rfl
theorem tidy_call (c x p l e a b) : tidyE (.call c x p l e a b) = (tidyE x && neatL l && neatEnd e && c.after.isEmpty) := rfl
theorem tidy_compr (c a p x l b e) : tidyE (.compr c a p x l b e) = (tidyE x && neatL l && neatEnd e && c.after.isEmpty) := rfl
theorem tidy_forClause (c p v q x) : tidyE (.forClause c p v q x) = (tidyE v && tidyE x && c.after.isEmpty) := rfl
theorem tidy_ifClause (c p x) : tidyE (.ifClause c p x) = (tidyE x && c.after.isEmpty) := rfl
theorem tidy_keyValue (c k p v) : tidyE (.keyValue c k p v) = (tidyE k && tidyE v && c.after.isEmpty) := rfl
theorem tidy_dict (c p l e a) : tidyE (.dict c p l e a) = (neatL l && neatEnd e && c.after.isEmpty) := rfl
theorem tidy_list (c p l e a) : tidyE (.list c p l e a) = (neatL l && neatEnd e && c.after.isEmpty) := rfl
theorem tidy_set (c p l e a) : tidyE (.set c p l e a) = (neatL l && neatEnd e && c.after.isEmpty) := rfl
theorem tidy_slice (c x p f q t r s u) : tidyE (.slice c x p f q t r s u) = (tidyE x && tidyE f && tidyE t && tidyE s && (r.byte != 0 || s.isNil) && c.after.isEmpty) := rfl
theorem tidy_index (c x p y q) : tidyE (.index c x p y q) = (tidyE x && tidyE y && c.after.isEmpty) := rfl
theorem tidy_lambda (c p l b) : tidyE (.lambda c p l b) = (neatL l && neatL b && (b.length == 1) && c.after.isEmpty) := rfl
theorem tidy_cond (c t p te q e) : tidyE (.cond c t p te q e) = (tidyE t && tidyE te && tidyE e && c.after.isEmpty) := rfl
theorem tidy_def (c p n ps b q f g t) : tidyE (.defS c p n ps b q f g t) = (neatL ps && neatS b && tidyE t && c.after.isEmpty) := rfl
theorem tidy_return (c p r) : tidyE (.returnS c p r) = (tidyE r && c.after.isEmpty) := rfl
theorem tidy_for (c p v x b) : tidyE (.forS c p v x b) = (tidyE v && tidyE x && neatS b && c.after.isEmpty) := rfl
theorem tidy_if (c p x t e f) : tidyE (.ifS c p x t e f) = (c.suffix.isEmpty && tidyE x && neatS t && neatElse e f && neatS f && c.after.isEmpty) := rfl
theorem neatS_cons (x l) (h : tidyE x = true) : neatS (x :: l) = neatS l := by
  simp only [neatS, (Bool.and_eq_true_iff.1 h).1, Bool.true_and]

/-- closes the steps without case distinctions -/
macro "nauto" : tactic => `(tactic| (
  simp only [NQ, GSym] at *
  first
  | trivial
  | assumption
  | (simp_all [tidy_mkBinary, tidy_mkUnary, tidy_mkTyped, tidy_ident, tidy_string, tidy_nil, neatL_append, neatL_cons, neatS_append, neatS_cons, neatL_nil, neatS_nil, tidy_tupleAppend,
      asString, asIdent]; done)
  | (simp_all [neatL_append, neatS_append, neatL_cons, neatS_cons, neatL_nil, neatS_nil, neatEnd, neatElse, tidy_nil, tidy_ident, tidy_string, Expr.isNil,
    tidy_branch, tidy_literal, tidy_dot, tidy_call, tidy_compr, tidy_forClause, tidy_ifClause, tidy_keyValue, tidy_dict, tidy_list, tidy_set, tidy_slice, tidy_index, tidy_lambda, tidy_cond, tidy_def, tidy_return, tidy_for, tidy_if]; done)
  | skip))

theorem nr1 : NStep 0 := g2 rfl fun t1 t2 v1 v2 v hT h1 h2 h => by
  cases h
  clear hT
  clear h2
  nauto

theorem nr3 : NStep 2 := g2 rfl fun t1 t2 v1 v2 v hT h1 h2 h => by
  cases h
  clear hT
  nauto

theorem nr4 : NStep 3 := g0 rfl fun  v hT  h => by
  cases h
  clear hT
  nauto

theorem nr5 : NStep 4 := g2 rfl fun t1 t2 v1 v2 v hT h1 h2 h => by
  cases h
  clear hT
  clear h2
  nauto

theorem nr6 : NStep 5 := g0 rfl fun  v hT  h => by
  cases h
  clear hT
  nauto

theorem nr8 : NStep 7 := g2 rfl fun t1 t2 v1 v2 v hT h1 h2 h => by
  cases h
  clear hT
  clear h2
  nauto

theorem nr9 : NStep 8 := g0 rfl fun  v hT  h => by
  cases h
  clear hT
  nauto

theorem nr11 : NStep 10 := g2 rfl fun t1 t2 v1 v2 v hT h1 h2 h => by
  cases h
  clear hT
  clear h2
  nauto

theorem nr13 : NStep 12 := g1 rfl fun t1 v1 v hT h1 h => by
  cases h
  clear hT
  nauto

theorem nr15 : NStep 14 := g5 rfl fun t1 t2 t3 t4 t5 v1 v2 v3 v4 v5 v hT h1 h2 h3 h4 h5 h => by
  cases h
  clear hT
  clear h1
  clear h2
  clear h3
  clear h5
  nauto

theorem nr16 : NStep 15 := g1 rfl fun t1 v1 v hT h1 h => by
  cases h
  clear hT
  nauto

theorem nr19 : NStep 18 := g6 rfl fun t1 t2 t3 t4 t5 t6 v1 v2 v3 v4 v5 v6 v hT h1 h2 h3 h4 h5 h6 h => by
  cases h
  clear hT
  clear h1
  clear h3
  clear h5
  nauto

theorem nr20 : NStep 19 := g1 rfl fun t1 v1 v hT h1 h => by
  cases h
  clear hT
  nauto

theorem nr21 : NStep 20 := g4 rfl fun t1 t2 t3 t4 v1 v2 v3 v4 v hT h1 h2 h3 h4 h => by
  cases h
  clear hT
  clear h1
  clear h3
  nauto

theorem nr23 : NStep 22 := g1 rfl fun t1 v1 v hT h1 h => by
  cases h
  clear hT
  nauto

theorem nr25 : NStep 24 := g2 rfl fun t1 t2 v1 v2 v hT h1 h2 h => by
  cases h
  clear hT
  clear h1
  clear h2
  nauto

theorem nr26 : NStep 25 := g1 rfl fun t1 v1 v hT h1 h => by
  cases h
  clear hT
  clear h1
  nauto

theorem nr27 : NStep 26 := g4 rfl fun t1 t2 t3 t4 v1 v2 v3 v4 v hT h1 h2 h3 h4 h => by
  cases h
  clear hT
  clear h4
  nauto

theorem nr28 : NStep 27 := g0 rfl fun  v hT  h => by
  cases h
  clear hT
  nauto

theorem nr29 : NStep 28 := g3 rfl fun t1 t2 t3 v1 v2 v3 v hT h1 h2 h3 h => by
  cases h
  clear hT
  clear h2
  nauto

theorem nr30 : NStep 29 := g1 rfl fun t1 v1 v hT h1 h => by
  cases h
  clear hT
  nauto

theorem nr31 : NStep 30 := g2 rfl fun t1 t2 v1 v2 v hT h1 h2 h => by
  cases h
  clear hT
  clear h1
  nauto

theorem nr32 : NStep 31 := g1 rfl fun t1 v1 v hT h1 h => by
  cases h
  clear hT
  clear h1
  nauto

theorem nr33 : NStep 32 := g3 rfl fun t1 t2 t3 v1 v2 v3 v hT h1 h2 h3 h => by
  cases h
  clear hT
  clear h2
  nauto

theorem nr34 : NStep 33 := g3 rfl fun t1 t2 t3 v1 v2 v3 v hT h1 h2 h3 h => by
  cases h
  clear hT
  clear h2
  nauto

theorem nr35 : NStep 34 := g1 rfl fun t1 v1 v hT h1 h => by
  cases h
  clear hT
  clear h1
  nauto

theorem nr36 : NStep 35 := g1 rfl fun t1 v1 v hT h1 h => by
  cases h
  clear hT
  clear h1
  nauto

theorem nr37 : NStep 36 := g1 rfl fun t1 v1 v hT h1 h => by
  cases h
  clear hT
  clear h1
  nauto

theorem nr38 : NStep 37 := g0 rfl fun  v hT  h => by
  cases h
  clear hT
  nauto

theorem nr39 : NStep 38 := g1 rfl fun t1 v1 v hT h1 h => by
  cases h
  clear hT
  clear h1
  nauto

theorem nr40 : NStep 39 := g1 rfl fun t1 v1 v hT h1 h => by
  cases h
  clear hT
  obtain ⟨n1, g1, k1⟩ := h1
  nauto

theorem nr41 : NStep 40 := g1 rfl fun t1 v1 v hT h1 h => by
  cases h
  clear hT
  nauto

theorem nr42 : NStep 41 := g1 rfl fun t1 v1 v hT h1 h => by
  cases h
  clear hT
  obtain ⟨n1, g1, k1⟩ := h1
  nauto

theorem nr43 : NStep 42 := g3 rfl fun t1 t2 t3 v1 v2 v3 v hT h1 h2 h3 h => by
  cases h
  clear hT
  clear h2
  clear h3
  nauto

theorem nr45 : NStep 44 := g4 rfl fun t1 t2 t3 t4 v1 v2 v3 v4 v hT h1 h2 h3 h4 h => by
  cases h
  clear hT
  clear h2
  clear h4
  nauto

theorem nr46 : NStep 45 := g4 rfl fun t1 t2 t3 t4 v1 v2 v3 v4 v hT h1 h2 h3 h4 h => by
  cases h
  clear hT
  clear h2
  clear h4
  nauto

theorem nr47 : NStep 46 := g6 rfl fun t1 t2 t3 t4 t5 t6 v1 v2 v3 v4 v5 v6 v hT h1 h2 h3 h4 h5 h6 h => by
  cases h
  clear hT
  clear h2
  clear h4
  clear h6
  nauto

theorem nr49 : NStep 48 := g3 rfl fun t1 t2 t3 v1 v2 v3 v hT h1 h2 h3 h => by
  cases h
  clear hT
  clear h1
  clear h3
  nauto

theorem nr50 : NStep 49 := g4 rfl fun t1 t2 t3 t4 v1 v2 v3 v4 v hT h1 h2 h3 h4 h => by
  cases h
  clear hT
  clear h1
  clear h4
  nauto

theorem nr51 : NStep 50 := g4 rfl fun t1 t2 t3 t4 v1 v2 v3 v4 v hT h1 h2 h3 h4 h => by
  cases h
  clear hT
  clear h1
  clear h4
  nauto

theorem nr52 : NStep 51 := g3 rfl fun t1 t2 t3 v1 v2 v3 v hT h1 h2 h3 h => by
  cases h
  clear hT
  clear h1
  clear h3
  nauto

theorem nr53 : NStep 52 := g4 rfl fun t1 t2 t3 t4 v1 v2 v3 v4 v hT h1 h2 h3 h4 h => by
  cases h
  clear hT
  clear h1
  clear h4
  nauto

theorem nr55 : NStep 54 := g0 rfl fun  v hT  h => by
  cases h
  clear hT
  nauto

theorem nr56 : NStep 55 := g2 rfl fun t1 t2 v1 v2 v hT h1 h2 h => by
  cases h
  clear hT
  nauto

theorem nr57 : NStep 56 := g2 rfl fun t1 t2 v1 v2 v hT h1 h2 h => by
  cases h
  clear hT
  nauto

theorem nr58 : NStep 57 := g3 rfl fun t1 t2 t3 v1 v2 v3 v hT h1 h2 h3 h => by
  cases h
  clear hT
  nauto

theorem nr59 : NStep 58 := g1 rfl fun t1 v1 v hT h1 h => by
  cases h
  clear hT
  nauto

theorem nr60 : NStep 59 := g3 rfl fun t1 t2 t3 v1 v2 v3 v hT h1 h2 h3 h => by
  cases h
  clear hT
  obtain ⟨n1, g1, k1⟩ := h1
  clear h2
  nauto

theorem nr61 : NStep 60 := g2 rfl fun t1 t2 v1 v2 v hT h1 h2 h => by
  cases h
  clear hT
  clear h1
  nauto

theorem nr62 : NStep 61 := g2 rfl fun t1 t2 v1 v2 v hT h1 h2 h => by
  cases h
  clear hT
  clear h1
  nauto

theorem nr63 : NStep 62 := g1 rfl fun t1 v1 v hT h1 h => by
  cases h
  clear hT
  nauto

theorem nr65 : NStep 64 := g1 rfl fun t1 v1 v hT h1 h => by
  cases h
  clear hT
  obtain ⟨n1, g1, k1⟩ := h1
  nauto

theorem nr66 : NStep 65 := g3 rfl fun t1 t2 t3 v1 v2 v3 v hT h1 h2 h3 h => by
  cases h
  clear hT
  obtain ⟨n1, g1, k1⟩ := h1
  clear h2
  obtain ⟨n3, g3, k3⟩ := h3
  nauto

theorem nr67 : NStep 66 := g0 rfl fun  v hT  h => by
  cases h
  clear hT
  nauto

theorem nr68 : NStep 67 := g2 rfl fun t1 t2 v1 v2 v hT h1 h2 h => by
  cases h
  clear hT
  nauto

theorem nr69 : NStep 68 := g0 rfl fun  v hT  h => by
  cases h
  clear hT
  nauto

theorem nr70 : NStep 69 := g2 rfl fun t1 t2 v1 v2 v hT h1 h2 h => by
  cases h
  clear hT
  nauto

theorem nr71 : NStep 70 := g1 rfl fun t1 v1 v hT h1 h => by
  cases h
  clear hT
  nauto

theorem nr72 : NStep 71 := g3 rfl fun t1 t2 t3 v1 v2 v3 v hT h1 h2 h3 h => by
  cases h
  clear hT
  clear h2
  nauto

theorem nr73 : NStep 72 := g1 rfl fun t1 v1 v hT h1 h => by
  cases h
  clear hT
  nauto

theorem nr74 : NStep 73 := g3 rfl fun t1 t2 t3 v1 v2 v3 v hT h1 h2 h3 h => by
  cases h
  clear hT
  clear h2
  nauto

theorem nr75 : NStep 74 := g1 rfl fun t1 v1 v hT h1 h => by
  cases h
  clear hT
  obtain ⟨n1, g1, k1⟩ := h1
  nauto

theorem nr76 : NStep 75 := g3 rfl fun t1 t2 t3 v1 v2 v3 v hT h1 h2 h3 h => by
  cases h
  clear hT
  obtain ⟨n1, g1, k1⟩ := h1
  clear h2
  nauto

theorem nr77 : NStep 76 := g2 rfl fun t1 t2 v1 v2 v hT h1 h2 h => by
  cases h
  clear hT
  clear h1
  obtain ⟨n2, g2, k2⟩ := h2
  nauto

theorem nr78 : NStep 77 := g1 rfl fun t1 v1 v hT h1 h => by
  cases h
  clear hT
  clear h1
  nauto

theorem nr79 : NStep 78 := g2 rfl fun t1 t2 v1 v2 v hT h1 h2 h => by
  cases h
  clear hT
  clear h1
  obtain ⟨n2, g2, k2⟩ := h2
  nauto

theorem nr80 : NStep 79 := g1 rfl fun t1 v1 v hT h1 h => by
  cases h
  clear hT
  nauto

theorem nr81 : NStep 80 := g3 rfl fun t1 t2 t3 v1 v2 v3 v hT h1 h2 h3 h => by
  cases h
  clear hT
  obtain ⟨n1, g1, k1⟩ := h1
  clear h2
  nauto

theorem nr82 : NStep 81 := g5 rfl fun t1 t2 t3 t4 t5 v1 v2 v3 v4 v5 v hT h1 h2 h3 h4 h5 h => by
  cases h
  clear hT
  obtain ⟨n1, g1, k1⟩ := h1
  clear h2
  clear h4
  nauto

theorem nr83 : NStep 82 := g4 rfl fun t1 t2 t3 t4 v1 v2 v3 v4 v hT h1 h2 h3 h4 h => by
  cases h
  clear hT
  clear h1
  obtain ⟨n2, g2, k2⟩ := h2
  clear h3
  nauto

theorem nr84 : NStep 83 := g4 rfl fun t1 t2 t3 t4 v1 v2 v3 v4 v hT h1 h2 h3 h4 h => by
  cases h
  clear hT
  clear h1
  obtain ⟨n2, g2, k2⟩ := h2
  clear h3
  nauto

theorem nr85 : NStep 84 := g1 rfl fun t1 v1 v hT h1 h => by
  cases h
  clear hT
  nauto

theorem nr86 : NStep 85 := g3 rfl fun t1 t2 t3 v1 v2 v3 v hT h1 h2 h3 h => by
  cases h
  clear hT
  clear h2
  nauto

theorem nr87 : NStep 86 := g0 rfl fun  v hT  h => by
  cases h
  clear hT
  nauto

theorem nr88 : NStep 87 := g1 rfl fun t1 v1 v hT h1 h => by
  cases h
  clear hT
  nauto

theorem nr89 : NStep 88 := g1 rfl fun t1 v1 v hT h1 h => by
  cases h
  clear hT
  nauto

theorem nr90 : NStep 89 := g4 rfl fun t1 t2 t3 t4 v1 v2 v3 v4 v hT h1 h2 h3 h4 h => by
  cases h
  clear hT
  clear h1
  clear h3
  nauto

theorem nr91 : NStep 90 := g2 rfl fun t1 t2 v1 v2 v hT h1 h2 h => by
  cases h
  clear hT
  clear h1
  nauto

theorem nr92 : NStep 91 := g2 rfl fun t1 t2 v1 v2 v hT h1 h2 h => by
  cases h
  clear hT
  clear h1
  nauto

theorem nr93 : NStep 92 := g2 rfl fun t1 t2 v1 v2 v hT h1 h2 h => by
  cases h
  clear hT
  clear h1
  nauto

theorem nr94 : NStep 93 := g2 rfl fun t1 t2 v1 v2 v hT h1 h2 h => by
  cases h
  clear hT
  clear h1
  nauto

theorem nr95 : NStep 94 := g3 rfl fun t1 t2 t3 v1 v2 v3 v hT h1 h2 h3 h => by
  cases h
  clear hT
  clear h2
  nauto

theorem nr96 : NStep 95 := g3 rfl fun t1 t2 t3 v1 v2 v3 v hT h1 h2 h3 h => by
  cases h
  clear hT
  clear h2
  nauto

theorem nr97 : NStep 96 := g3 rfl fun t1 t2 t3 v1 v2 v3 v hT h1 h2 h3 h => by
  cases h
  clear hT
  clear h2
  nauto

theorem nr98 : NStep 97 := g3 rfl fun t1 t2 t3 v1 v2 v3 v hT h1 h2 h3 h => by
  cases h
  clear hT
  clear h2
  nauto

theorem nr99 : NStep 98 := g3 rfl fun t1 t2 t3 v1 v2 v3 v hT h1 h2 h3 h => by
  cases h
  clear hT
  clear h2
  nauto

theorem nr100 : NStep 99 := g3 rfl fun t1 t2 t3 v1 v2 v3 v hT h1 h2 h3 h => by
  cases h
  clear hT
  clear h2
  nauto

theorem nr101 : NStep 100 := g3 rfl fun t1 t2 t3 v1 v2 v3 v hT h1 h2 h3 h => by
  cases h
  clear hT
  clear h2
  nauto

theorem nr102 : NStep 101 := g3 rfl fun t1 t2 t3 v1 v2 v3 v hT h1 h2 h3 h => by
  cases h
  clear hT
  clear h2
  nauto

theorem nr103 : NStep 102 := g3 rfl fun t1 t2 t3 v1 v2 v3 v hT h1 h2 h3 h => by
  cases h
  clear hT
  clear h2
  nauto

theorem nr104 : NStep 103 := g3 rfl fun t1 t2 t3 v1 v2 v3 v hT h1 h2 h3 h => by
  cases h
  clear hT
  clear h2
  nauto

theorem nr105 : NStep 104 := g3 rfl fun t1 t2 t3 v1 v2 v3 v hT h1 h2 h3 h => by
  cases h
  clear hT
  clear h2
  nauto

theorem nr106 : NStep 105 := g3 rfl fun t1 t2 t3 v1 v2 v3 v hT h1 h2 h3 h => by
  cases h
  clear hT
  clear h2
  nauto

theorem nr107 : NStep 106 := g3 rfl fun t1 t2 t3 v1 v2 v3 v hT h1 h2 h3 h => by
  cases h
  clear hT
  clear h2
  nauto

theorem nr108 : NStep 107 := g4 rfl fun t1 t2 t3 t4 v1 v2 v3 v4 v hT h1 h2 h3 h4 h => by
  cases h
  clear hT
  clear h2
  clear h3
  nauto

theorem nr109 : NStep 108 := g3 rfl fun t1 t2 t3 v1 v2 v3 v hT h1 h2 h3 h => by
  cases h
  clear hT
  clear h2
  nauto

theorem nr110 : NStep 109 := g3 rfl fun t1 t2 t3 v1 v2 v3 v hT h1 h2 h3 h => by
  cases h
  clear hT
  clear h2
  nauto

theorem nr111 : NStep 110 := g3 rfl fun t1 t2 t3 v1 v2 v3 v hT h1 h2 h3 h => by
  cases h
  clear hT
  clear h2
  nauto

theorem nr112 : NStep 111 := g3 rfl fun t1 t2 t3 v1 v2 v3 v hT h1 h2 h3 h => by
  cases h
  clear hT
  clear h2
  nauto

theorem nr113 : NStep 112 := g3 rfl fun t1 t2 t3 v1 v2 v3 v hT h1 h2 h3 h => by
  cases h
  clear hT
  clear h2
  nauto

theorem nr114 : NStep 113 := g3 rfl fun t1 t2 t3 v1 v2 v3 v hT h1 h2 h3 h => by
  cases h
  clear hT
  clear h2
  nauto

theorem nr115 : NStep 114 := g3 rfl fun t1 t2 t3 v1 v2 v3 v hT h1 h2 h3 h => by
  cases h
  clear hT
  clear h2
  nauto

theorem nr117 : NStep 116 := g5 rfl fun t1 t2 t3 t4 t5 v1 v2 v3 v4 v5 v hT h1 h2 h3 h4 h5 h => by
  cases h
  clear hT
  clear h2
  clear h4
  nauto

theorem nr118 : NStep 117 := g1 rfl fun t1 v1 v hT h1 h => by
  cases h
  clear hT
  nauto

theorem nr119 : NStep 118 := g3 rfl fun t1 t2 t3 v1 v2 v3 v hT h1 h2 h3 h => by
  cases h
  clear hT
  nauto

theorem nr120 : NStep 119 := g0 rfl fun  v hT  h => by
  cases h
  clear hT
  nauto

theorem nr121 : NStep 120 := g1 rfl fun t1 v1 v hT h1 h => by
  cases h
  clear hT
  nauto

theorem nr122 : NStep 121 := g0 rfl fun  v hT  h => by
  cases h
  clear hT
  nauto

theorem nr123 : NStep 122 := g2 rfl fun t1 t2 v1 v2 v hT h1 h2 h => by
  cases h
  clear hT
  nauto

theorem nr124 : NStep 123 := g0 rfl fun  v hT  h => by
  cases h
  clear hT
  nauto

theorem nr125 : NStep 124 := g1 rfl fun t1 v1 v hT h1 h => by
  cases h
  clear hT
  clear h1
  nauto

theorem nr126 : NStep 125 := g1 rfl fun t1 v1 v hT h1 h => by
  cases h
  clear hT
  clear h1
  nauto

theorem nr127 : NStep 126 := g2 rfl fun t1 t2 v1 v2 v hT h1 h2 h => by
  cases h
  clear hT
  clear h2
  nauto

theorem nr128 : NStep 127 := g0 rfl fun  v hT  h => by
  cases h
  clear hT
  nauto

theorem nr129 : NStep 128 := g1 rfl fun t1 v1 v hT h1 h => by
  cases h
  clear hT
  nauto

theorem nr130 : NStep 129 := g3 rfl fun t1 t2 t3 v1 v2 v3 v hT h1 h2 h3 h => by
  cases h
  clear hT
  clear h2
  nauto

theorem nr131 : NStep 130 := g1 rfl fun t1 v1 v hT h1 h => by
  cases h
  clear hT
  nauto

theorem nr132 : NStep 131 := g3 rfl fun t1 t2 t3 v1 v2 v3 v hT h1 h2 h3 h => by
  cases h
  clear hT
  nauto

theorem nr133 : NStep 132 := g0 rfl fun  v hT  h => by
  cases h
  clear hT
  nauto

theorem nr134 : NStep 133 := g1 rfl fun t1 v1 v hT h1 h => by
  cases h
  clear hT
  nauto

theorem nr135 : NStep 134 := g2 rfl fun t1 t2 v1 v2 v hT h1 h2 h => by
  cases h
  clear hT
  nauto

theorem nr136 : NStep 135 := g1 rfl fun t1 v1 v hT h1 h => by
  cases h
  clear hT
  nauto

theorem nr137 : NStep 136 := g3 rfl fun t1 t2 t3 v1 v2 v3 v hT h1 h2 h3 h => by
  cases h
  clear hT
  clear h2
  nauto

theorem nr138 : NStep 137 := g1 rfl fun t1 v1 v hT h1 h => by
  cases h
  clear hT
  clear h1
  nauto

theorem nr139 : NStep 138 := g1 rfl fun t1 v1 v hT h1 h => by
  cases h
  clear hT
  clear h1
  nauto

theorem nr140 : NStep 139 := g3 rfl fun t1 t2 t3 v1 v2 v3 v hT h1 h2 h3 h => by
  cases h
  clear hT
  clear h1
  clear h2
  clear h3
  nauto

theorem nr141 : NStep 140 := g2 rfl fun t1 t2 v1 v2 v hT h1 h2 h => by
  cases h
  clear hT
  clear h1
  clear h2
  nauto

theorem nr142 : NStep 141 := g2 rfl fun t1 t2 v1 v2 v hT h1 h2 h => by
  cases h
  clear hT
  clear h1
  clear h2
  nauto

theorem nr143 : NStep 142 := g1 rfl fun t1 v1 v hT h1 h => by
  cases h
  clear hT
  clear h1
  nauto

theorem nr144 : NStep 143 := g4 rfl fun t1 t2 t3 t4 v1 v2 v3 v4 v hT h1 h2 h3 h4 h => by
  cases h
  clear hT
  clear h1
  clear h3
  nauto

theorem nr145 : NStep 144 := g1 rfl fun t1 v1 v hT h1 h => by
  cases h
  clear hT
  nauto

theorem nr146 : NStep 145 := g3 rfl fun t1 t2 t3 v1 v2 v3 v hT h1 h2 h3 h => by
  cases h
  clear hT
  clear h2
  nauto

theorem nr147 : NStep 146 := g1 rfl fun t1 v1 v hT h1 h => by
  cases h
  clear hT
  nauto

theorem nr148 : NStep 147 := g2 rfl fun t1 t2 v1 v2 v hT h1 h2 h => by
  cases h
  clear hT
  nauto

theorem neat_addComment (v : Val) (p : Pos) (t : Bytes) (h : neatS v.exprs = true) : neatS (addComment v p t).exprs = true := by
  unfold addComment
  dsimp only
  rw [neatS_modLast _ (fun x => neat_setAfter _ x)]
  split
  · exact h
  · rw [neatS_append, h]; rfl

theorem nr7 : NStep 6 := g3 rfl fun t1 t2 t3 v1 v2 v3 v _ h1 h2 h3 h => by
  cases h
  exact neat_addComment _ _ _ h1

theorem nr12 : NStep 11 := g3 rfl fun t1 t2 t3 v1 v2 v3 v _ h1 h2 h3 h => by
  cases h
  exact neat_addComment _ _ _ h1

theorem nr10 : NStep 9 := g2 rfl fun t1 t2 v1 v2 v _ h1 h2 h => by
  cases h
  have h1 : neatS v1.exprs = true := h1
  have h2 : neatS v2.exprs = true := h2
  show neatS (addStmt v1 v2).exprs = true
  unfold addStmt
  split
  · split
    · simp [neatS_append, h1, h2]
    · split
      · simp [neatS_append, neatS_modHead _ (neat_setBefore _), neatS_dropLast _ h1, h2]
      · simp [neatS_append, neatS_modHead _ (neat_setBefore _), neatS_modLast _ (neat_setAfter _), h1, h2]
  · simp [neatS_append, h1, h2]

theorem nr2 : NStep 1 := g5 rfl fun t1 t2 t3 t4 t5 v1 v2 v3 v4 v5 v hT h1 h2 h3 h4 h5 h => by
  have h : mkSuite v1 v2 v4 = some v := h
  have h2 : neatS v2.exprs = true := h2
  have h4 : neatS v4.exprs = true := h4
  show neatS v.exprs = true
  unfold mkSuite at h
  split at h
  · cases h; exact h4
  · split at h
    · rename_i s l c hs hc
      split at h
      · cases h
        show neatS (v2.exprs.dropLast ++ _) = true
        rw [hs] at h4
        simp only [neatS_append, neatS_dropLast _ h2, neatS, neat_setBefore, Bool.true_and] at h4 ⊢
        exact h4
      · cases h
        show neatS (v2.exprs ++ v4.exprs) = true
        rw [neatS_append, h2, h4]; rfl
    · cases h

theorem neat_extractLoop (ind : Nat) : ∀ (l : List Expr) (first : Bool), neatS l = true →
    neatS (extractLoop ind first l).1 = true ∧ neatS (extractLoop ind first l).2 = true ∧ (first = true → l ≠ [] → (extractLoop ind first l).1 ≠ []) := by
  intro l
  induction l with
  | nil => intro first _; exact ⟨rfl, rfl, fun _ h => absurd rfl h⟩
  | cons s l ih =>
    intro first h
    unfold extractLoop
    simp only [neatS, Bool.and_eq_true] at h
    split
    · rename_i stay go _
      dsimp only
      refine ⟨?_, ?_, fun hf _ => by rw [hf]; simp⟩
      · split
        · rfl
        · simp only [neatS, neat_setAfter, h.1, Bool.and_self]
      · show neatS (_ :: l) = true
        rw [neatS, h.2]; rfl
    · obtain ⟨a1, a2, _⟩ := ih false h.2
      dsimp only
      refine ⟨?_, a2, fun _ _ => by simp⟩
      simp only [neatS, h.1, a1, Bool.and_self]

theorem neat_extractBody (l : List Expr) (h : neatS l = true) :
    neatS (extractBody l).1 = true ∧ neatS (extractBody l).2 = true ∧ ((extractBody l).1.isEmpty = l.isEmpty) := by
  unfold extractBody
  split
  · exact ⟨rfl, rfl, rfl⟩
  · rename_i x l'
    split
    · exact ⟨h, rfl, rfl⟩
    · rename_i a b hs
      obtain ⟨e1, e2⟩ := splitAt_append _ _ _ hs
      rw [e1, neatS_append, Bool.and_eq_true] at h
      obtain ⟨a1, a2, a3⟩ := neat_extractLoop x.startPos.lineRune b true h.2
      dsimp only
      refine ⟨by rw [neatS_append, h.1, a1]; rfl, a2, ?_⟩
      have := a3 rfl e2
      generalize (extractLoop x.startPos.lineRune true b).1 = y at this ⊢
      cases y with
      | nil => exact absurd rfl this
      | cons z y => cases a <;> rfl

theorem neat_extract : ∀ (f : Nat) (s : Expr), neat s = true→
    neat (extractTrailing f s).1 = true ∧ neatS (extractTrailing f s).2 = true := by
  intro f
  induction f with
  | zero => intro s h; exact ⟨h, rfl⟩
  | succ f ih =>
    intro s h
    unfold extractTrailing
    split
    · rename_i c sp n ps body cp fc fm t
      simp only [neat, Bool.and_eq_true] at h
      obtain ⟨a1, a2, a3⟩ := neat_extractBody body h.1.2
      refine ⟨?_, a2⟩
      simp only [neat, Bool.and_eq_true]
      exact ⟨⟨h.1.1, a1⟩, h.2⟩
    · rename_i c fp vs x body
      simp only [neat, Bool.and_eq_true] at h
      obtain ⟨a1, a2, a3⟩ := neat_extractBody body h.2
      refine ⟨?_, a2⟩
      simp only [neat, Bool.and_eq_true]
      exact ⟨h.1, a1⟩
    · rename_i c ip co t ep fa
      simp only [neat, neatElse, Bool.and_eq_true] at h
      split
      · obtain ⟨a1, a2, a3⟩ := neat_extractBody t h.1.1.2
        refine ⟨?_, a2⟩
        simp only [neat, neatElse, Bool.and_eq_true]
        exact ⟨⟨⟨h.1.1.1, a1⟩, h.1.2⟩, rfl⟩
      · rename_i c2 ip2 co2 t2 ep2 fa2
        have h2 := h.2
        simp only [neatS, Bool.and_true] at h2
        obtain ⟨a1, a2⟩ := ih _ h2
        refine ⟨?_, a2⟩
        simp only [neat, neatElse, neatS, Bool.and_eq_true]
        exact ⟨⟨h.1.1, rfl, h.1.2.2⟩, a1, trivial⟩
      · obtain ⟨a1, a2, a3⟩ := neat_extractBody fa h.2
        refine ⟨?_, a2⟩
        simp only [neat, neatElse, Bool.and_eq_true, a3]
        exact ⟨h.1, a1⟩
    · exact ⟨h, rfl⟩

theorem nr14 : NStep 13 := g1 rfl fun t1 v1 v _ h1 h => by
  have h : (let (s, cbs) := extractTrailing (chainLength v1.expr) v1.expr
    some { v1 with exprs := s :: cbs, last := cbs.isEmpty || v1.last }) = some v := h
  have h1 : tidyE v1.expr = true := h1
  obtain ⟨a1, a2⟩ := neat_extract (chainLength v1.expr) v1.expr (Bool.and_eq_true_iff.1 h1).1
  generalize extractTrailing (chainLength v1.expr) v1.expr = p at a1 a2 h
  cases h
  show neatS (p.1 :: p.2) = true
  simp only [neatS, a1, a2, Bool.and_self]

theorem nr17 : NStep 16 := g3 rfl fun t1 t2 t3 v1 v2 v3 v _ h1 h2 h3 h => by
  obtain ⟨c, sp, n, ps, b, cp, fc, fm, t, e, rfl⟩ := sem17 (h : sem 17 [v1, v2, v3] = some v)
  have h1 : tidyE v1.expr = true := h1
  have h3 : tidyE v3.expr = true := h3
  rw [e] at h1
  show tidyE (.defS c sp n ps b cp fc fm v3.expr) = true
  simp only [tidyE, neat, ac_defS, Bool.and_eq_true] at h1 ⊢
  exact ⟨⟨h1.1.1, Bool.and_eq_true_iff.1 h3⟩, h1.2⟩

theorem nr18 : NStep 17 := g3 rfl fun t1 t2 t3 v1 v2 v3 v _ h1 h2 h3 h => by
  obtain ⟨c, sp, n, ps, b, cp, fc, fm, t, e, rfl⟩ := sem18 (h : sem 18 [v1, v2, v3] = some v)
  have h1 : tidyE v1.expr = true := h1
  have h3 : neatS v3.exprs = true := h3
  rw [e] at h1
  show tidyE (.defS c sp n ps v3.exprs v2.pos fc fm t) = true
  simp only [tidyE, neat, ac_defS, Bool.and_eq_true] at h1 ⊢
  exact ⟨⟨⟨h1.1.1.1, h3⟩, h1.1.2⟩, h1.2⟩

theorem neat_setElse : ∀ (f : Nat) (p : Pos) (new : List Expr) (e e' : Expr), neatS new = true → neat e = true → setElse f p new e = some e' → neat e' = true := by
  intro f
  induction f with
  | zero => intro p new e e' _ _ h; cases h
  | succ f ih =>
    intro p new e e' hn he h
    unfold setElse at h
    split at h
    · cases h
    · rename_i f' c ip co t ep fa hf
      simp only [neat, neatElse, Bool.and_eq_true] at he
      split at h
      · rename_i x
        rw [Option.map_eq_some_iff] at h
        obtain ⟨x', hx, rfl⟩ := h
        cases hf
        have h2 := he.2
        simp only [neatS, Bool.and_true] at h2
        simp only [neat, neatElse, neatS, Bool.and_eq_true]
        exact ⟨⟨he.1.1, rfl, he.1.2.2⟩, ih _ _ _ _ hn h2 hx, trivial⟩
      · cases h
        simp only [neat, neatElse, Bool.and_eq_true]
        exact ⟨⟨he.1.1, by simp, rfl⟩, hn⟩
    · cases h

theorem after_setElse {f : Nat} {p : Pos} {new : List Expr} {e e' : Expr} (h : setElse f p new e = some e') : afterC e' = afterC e := by
  cases f with
  | zero => cases h
  | succ f =>
    unfold setElse at h
    split at h
    · cases h
    · split at h
      · rw [Option.map_eq_some_iff] at h
        obtain ⟨x', hx, rfl⟩ := h
        rfl
      · cases h; rfl
    · cases h

theorem tidy_setElse (f : Nat) (p : Pos) (new : List Expr) (e e' : Expr) (hn : neatS new = true) (he : tidyE e = true) (h : setElse f p new e = some e') : tidyE e' = true := by
  unfold tidyE at he ⊢
  rw [Bool.and_eq_true] at he ⊢
  rw [after_setElse h]
  exact ⟨neat_setElse _ _ _ _ _ hn he.1 h, he.2⟩

theorem nr22 : NStep 21 := g5 rfl fun t1 t2 t3 t4 t5 v1 v2 v3 v4 v5 v _ h1 h2 h3 h4 h5 h => by
  have h : (setElse (chainLength v1.expr) v2.pos [.ifS {} v2.pos v3.expr v5.exprs {} []] v1.expr).map (fun e => { v1 with expr := e, last := v5.last }) = some v := h
  rw [Option.map_eq_some_iff] at h
  obtain ⟨e, he, rfl⟩ := h
  have h3 : tidyE v3.expr = true := h3
  have h5 : neatS v5.exprs = true := h5
  refine tidy_setElse _ _ _ _ _ ?_ h1 he
  simp only [neatS, neat, Bool.and_eq_true]
  exact ⟨⟨⟨⟨⟨rfl, Bool.and_eq_true_iff.1 h3⟩, h5⟩, rfl⟩, trivial⟩, trivial⟩

theorem nr24 : NStep 23 := g4 rfl fun t1 t2 t3 t4 v1 v2 v3 v4 v _ h1 h2 h3 h4 h => by
  have h : (setElse (chainLength v1.expr) v2.pos v4.exprs v1.expr).map (fun e => { v1 with expr := e, last := v4.last }) = some v := h
  rw [Option.map_eq_some_iff] at h
  obtain ⟨e, he, rfl⟩ := h
  exact tidy_setElse _ _ _ _ _ h4 h1 he

theorem nr64 : NStep 63 := g3 rfl fun t1 t2 t3 v1 v2 v3 v _ h1 h2 h3 h => by
  cases h
  intro p hp
  rcases List.mem_append.1 (show p ∈ v1.loadargs ++ v3.loadargs from hp) with h | h
  · exact h1 p h
  · exact h3 p h

theorem neatLoad_pairs : ∀ l : List (IdentN × IdentN), (∀ p ∈ l, p.1.comments.after = [] ∧ p.2.comments.after = []) → neatLoad (l.map (·.1)) (l.map (·.2)) = true := by
  intro l
  induction l with
  | nil => intro _; rfl
  | cons p l ih =>
    intro h
    have := h p (List.mem_cons_self ..)
    simp only [List.map_cons, neatLoad, this, ih (fun q hq => h q (List.mem_cons_of_mem _ hq)), List.isEmpty_nil, Bool.and_self]

theorem nr44 : NStep 43 := g8 rfl fun t1 t2 t3 t4 t5 t6 t7 t8 v1 v2 v3 v4 v5 v6 v7 v8 v _ h1 h2 h3 h4 h5 h6 h7 h8 h => by
  cases h
  obtain ⟨n, hn, h4⟩ := h4
  show tidyE (.load {} v1.pos (asString v4.expr) (v6.loadargs.map (·.1)) (v6.loadargs.map (·.2)) ⟨{}, v8.pos⟩ _) = true
  simp only [tidyE, neat, hn, asString, h4, neatLoad_pairs _ h6, Bool.and_eq_true]
  exact ⟨⟨⟨rfl, trivial⟩, rfl⟩, rfl⟩

theorem nr48 : NStep 47 := g8 rfl fun t1 t2 t3 t4 t5 t6 t7 t8 v1 v2 v3 v4 v5 v6 v7 v8 v hT h1 h2 h3 h4 h5 h6 h7 h8 h => by
  cases h
  obtain ⟨t, rfl, hk, rfl, hc⟩ := h6
  have hp : t.pos.byte ≠ 0 := hc t (List.mem_singleton.2 rfl) hk
  have h1 : tidyE v1.expr = true := h1
  have h3 : tidyE v3.expr = true := h3
  have h5 : tidyE v5.expr = true := h5
  have h7 : tidyE v7.expr = true := h7
  show tidyE (.slice {} v1.expr v2.pos v3.expr v4.pos v5.expr t.pos v7.expr v8.pos) = true
  simp only [tidyE, neat, Bool.and_eq_true, Bool.or_eq_true, bne_iff_ne] at *
  exact ⟨⟨⟨⟨⟨h1, h3⟩, h5⟩, h7⟩, .inl hp⟩, rfl⟩

theorem nr54 : NStep 53 := g3 rfl fun t1 t2 t3 v1 v2 v3 v _ h1 h2 h3 h => by
  have h2 : neatL v2.exprs = true := h2
  rw [show (53 + 1) = 54 from rfl, sem54] at h
  cases h
  show tidyE (parenOrTuple v1.pos v2 v3.pos) = true
  unfold parenOrTuple
  split
  · rename_i hc
    cases hl : v2.exprs with
    | nil => rw [hl] at hc; exact absurd hc.1 (by simp)
    | cons x l =>
      rw [hl] at h2
      simp only [neatL, tidyE, Bool.and_eq_true] at h2
      simp only [List.headD_cons, tidyE, neat, Bool.and_eq_true]
      exact ⟨⟨h2.1, rfl⟩, rfl⟩
  · simp only [tidyE, neat, h2]; rfl

theorem nr116 : NStep 115 := g3 rfl fun t1 t2 t3 v1 v2 v3 v _ h1 h2 h3 h => by
  have h1 : tidyE v1.expr = true := h1
  have h3 : tidyE v3.expr = true := h3
  rw [show (115 + 1) = 116 from rfl, sem116] at h
  cases h
  show tidyE (mkIs v1.expr v2.pos v2.tok v3.expr) = true
  unfold mkIs
  split
  · rename_i c o uop z hz
    rw [hz, tidy_unary, Bool.and_eq_true] at h3
    split
    · rw [tidy_mkBinary, h1, h3.1]; rfl
    · rw [tidy_mkBinary, h1, tidy_unary, h3.1, h3.2]; rfl
  · rw [tidy_mkBinary, h1, h3]; rfl

theorem neat_steps : ∀ r, r < 148 → NStep r
  | 0, _ => nr1
  | 1, _ => nr2
  | 2, _ => nr3
  | 3, _ => nr4
  | 4, _ => nr5
  | 5, _ => nr6
  | 6, _ => nr7
  | 7, _ => nr8
  | 8, _ => nr9
  | 9, _ => nr10
  | 10, _ => nr11
  | 11, _ => nr12
  | 12, _ => nr13
  | 13, _ => nr14
  | 14, _ => nr15
  | 15, _ => nr16
  | 16, _ => nr17
  | 17, _ => nr18
  | 18, _ => nr19
  | 19, _ => nr20
  | 20, _ => nr21
  | 21, _ => nr22
  | 22, _ => nr23
  | 23, _ => nr24
  | 24, _ => nr25
  | 25, _ => nr26
  | 26, _ => nr27
  | 27, _ => nr28
  | 28, _ => nr29
  | 29, _ => nr30
  | 30, _ => nr31
  | 31, _ => nr32
  | 32, _ => nr33
  | 33, _ => nr34
  | 34, _ => nr35
  | 35, _ => nr36
  | 36, _ => nr37
  | 37, _ => nr38
  | 38, _ => nr39
  | 39, _ => nr40
  | 40, _ => nr41
  | 41, _ => nr42
  | 42, _ => nr43
  | 43, _ => nr44
  | 44, _ => nr45
  | 45, _ => nr46
  | 46, _ => nr47
  | 47, _ => nr48
  | 48, _ => nr49
  | 49, _ => nr50
  | 50, _ => nr51
  | 51, _ => nr52
  | 52, _ => nr53
  | 53, _ => nr54
  | 54, _ => nr55
  | 55, _ => nr56
  | 56, _ => nr57
  | 57, _ => nr58
  | 58, _ => nr59
  | 59, _ => nr60
  | 60, _ => nr61
  | 61, _ => nr62
  | 62, _ => nr63
  | 63, _ => nr64
  | 64, _ => nr65
  | 65, _ => nr66
  | 66, _ => nr67
  | 67, _ => nr68
  | 68, _ => nr69
  | 69, _ => nr70
  | 70, _ => nr71
  | 71, _ => nr72
  | 72, _ => nr73
  | 73, _ => nr74
  | 74, _ => nr75
  | 75, _ => nr76
  | 76, _ => nr77
  | 77, _ => nr78
  | 78, _ => nr79
  | 79, _ => nr80
  | 80, _ => nr81
  | 81, _ => nr82
  | 82, _ => nr83
  | 83, _ => nr84
  | 84, _ => nr85
  | 85, _ => nr86
  | 86, _ => nr87
  | 87, _ => nr88
  | 88, _ => nr89
  | 89, _ => nr90
  | 90, _ => nr91
  | 91, _ => nr92
  | 92, _ => nr93
  | 93, _ => nr94
  | 94, _ => nr95
  | 95, _ => nr96
  | 96, _ => nr97
  | 97, _ => nr98
  | 98, _ => nr99
  | 99, _ => nr100
  | 100, _ => nr101
  | 101, _ => nr102
  | 102, _ => nr103
  | 103, _ => nr104
  | 104, _ => nr105
  | 105, _ => nr106
  | 106, _ => nr107
  | 107, _ => nr108
  | 108, _ => nr109
  | 109, _ => nr110
  | 110, _ => nr111
  | 111, _ => nr112
  | 112, _ => nr113
  | 113, _ => nr114
  | 114, _ => nr115
  | 115, _ => nr116
  | 116, _ => nr117
  | 117, _ => nr118
  | 118, _ => nr119
  | 119, _ => nr120
  | 120, _ => nr121
  | 121, _ => nr122
  | 122, _ => nr123
  | 123, _ => nr124
  | 124, _ => nr125
  | 125, _ => nr126
  | 126, _ => nr127
  | 127, _ => nr128
  | 128, _ => nr129
  | 129, _ => nr130
  | 130, _ => nr131
  | 131, _ => nr132
  | 132, _ => nr133
  | 133, _ => nr134
  | 134, _ => nr135
  | 135, _ => nr136
  | 136, _ => nr137
  | 137, _ => nr138
  | 138, _ => nr139
  | 139, _ => nr140
  | 140, _ => nr141
  | 141, _ => nr142
  | 142, _ => nr143
  | 143, _ => nr144
  | 144, _ => nr145
  | 145, _ => nr146
  | 146, _ => nr147
  | 147, _ => nr148
  | n + 148, h => absurd h (by omega)

end Verif.Printed
