import Verif.Proofs.FitQ
/-
Every production of the grammar builds values with nothing missing.
-/
set_option linter.unusedVariables false
set_option linter.unusedSimpArgs false
namespace Verif.Printed
open Verif Verif.Syntax Verif.Lexer Verif.Print Verif.Parser Verif.Grammar Verif.Props.Grammar Verif.Round

section
variable {T : Bytes → Bool}

theorem fitL_append : ∀ a b : List Expr, fitL T false (a ++ b) = (fitL T false a && fitL T false b) := by
  intro a b
  induction a with
  | nil => simp [fitL]
  | cons x a ih => simp [fitL, ih, Bool.and_assoc]

theorem fitO_append : ∀ a b : List Expr, fitO T false (a ++ b) = (fitO T false a && fitO T false b) := by
  intro a b
  induction a with
  | nil => simp [fitO]
  | cons x a ih => simp [fitO, ih, Bool.and_assoc]

theorem fitO_of : ∀ a : List Expr, fitL T false a = true → fitO T false a = true := by
  intro a
  induction a with
  | nil => intro _; rfl
  | cons x a ih => intro h; simp only [fitL, fitO, Bool.and_eq_true, Bool.or_eq_true] at h ⊢; exact ⟨.inr h.1, ih h.2⟩

theorem fit_mkBinary (x : Expr) (p : Pos) (op : Bytes) (y : Expr) : fit T false (mkBinary x p op y) = (T op && (fit T false x && fit T false y)) := by
  unfold mkBinary
  dsimp only
  split <;> rfl

theorem fit_tupleAppend (x y : Expr) (hx : fit T false x = true) (hy : fit T false y = true) : fit T false (tupleAppend x y) = true := by
  unfold tupleAppend
  split
  · simp only [fit, fitO, fitO_append, Bool.and_eq_true] at hx ⊢
    simp_all
  · simp_all [fit, fitO]

theorem QTok.text {k ts v} (h : QTok T k ts v) (hp : ∀ s : Bytes, 10 ∉ s → T s = true) (h1 : k ≠ K.string) (h2 : k ≠ K.newline) (h3 : k ≠ K.comment) : T v.tok = true :=
  hp _ (h.plain h1 h2 h3)

theorem fit_setComments (x : Expr) (c : Comments) : fit T false (x.setComments c) = fit T false x ∧ (x.setComments c).isNil = x.isNil := by
  cases x <;> exact ⟨rfl, rfl⟩

theorem fitO_modLast (f : Expr → Expr) (hf : ∀ x, (f x).isNil = x.isNil ∧ fit T false (f x) = fit T false x) : ∀ l, fitO T false (modLast f l) = fitO T false l
  | [] => rfl
  | [x] => by simp only [modLast, fitO, (hf x).1, (hf x).2]
  | x :: y :: l => by
    have := fitO_modLast f hf (y :: l)
    simp only [modLast, fitO] at this ⊢
    rw [this]

theorem fitO_modHead (f : Expr → Expr) (hf : ∀ x, (f x).isNil = x.isNil ∧ fit T false (f x) = fit T false x) : ∀ l, fitO T false (modHead f l) = fitO T false l
  | [] => rfl
  | x :: l => by simp only [modHead, fitO, (hf x).1, (hf x).2]

theorem keep_setAfter (c : List Comment) (x : Expr) : (setAfter c x).isNil = x.isNil ∧ fit T false (setAfter c x) = fit T false x :=
  ⟨(fit_setComments (T := T) x _).2, (fit_setComments x _).1⟩
theorem keep_setBefore (c : List Comment) (x : Expr) : (setBefore c x).isNil = x.isNil ∧ fit T false (setBefore c x) = fit T false x :=
  ⟨(fit_setComments (T := T) x _).2, (fit_setComments x _).1⟩

theorem modLast_nil (f : Expr → Expr) : ∀ l, modLast f l = [] ↔ l = []
  | [] => Iff.rfl
  | [x] => by simp [modLast]
  | x :: y :: l => by simp [modLast]

theorem modHead_nil (f : Expr → Expr) : ∀ l, modHead f l = [] ↔ l = []
  | [] => Iff.rfl
  | x :: l => by simp [modHead]

theorem solid_mkBinary (x : Expr) (p : Pos) (op : Bytes) (y : Expr) : solid (mkBinary x p op y) = true := by
  unfold mkBinary
  dsimp only
  split <;> rfl

theorem fit_notNil {x : Expr} (h : fit T false x = true) : x.isNil = false := by
  cases x with
  | nil => cases h
  | _ => rfl

/-- closes the steps without case distinctions -/
macro "qauto" : tactic => `(tactic| (
  simp only [Q, QSym] at *
  first
  | trivial
  | assumption
  | (simp_all [fit, fitL, fitO, fitH, fitL_append, fitO_append, fit_mkBinary, fit_tupleAppend, mkUnary, Expr.isNil, mkTyped, asString, asIdent, fitPair,
      solid_mkBinary]; done)
  | (refine ⟨?_, rfl⟩
     simp_all [fit, fitL, fitO, fitH, fitL_append, fitO_append, mkUnary, Expr.isNil, mkTyped]; done)
  | skip))

