import Verif.Proofs.FitQ
/-
Every production of the grammar builds values with nothing missing.
-/
set_option linter.unusedVariables false
set_option linter.unusedSimpArgs false
namespace Verif.Printed
open Verif Verif.Syntax Verif.Lexer Verif.Print Verif.Parser Verif.Grammar Verif.Props.Grammar Verif.Round

section
variable {T : Bytes → Bool}

theorem fitL_append : ∀ a b : List Expr, fitL T false (a ++ b) = (fitL T false a && fitL T false b) := by
  intro a b
  induction a with
  | nil => simp [fitL]
  | cons x a ih => simp [fitL, ih, Bool.and_assoc]

theorem fitO_append : ∀ a b : List Expr, fitO T false (a ++ b) = (fitO T false a && fitO T false b) := by
  intro a b
  induction a with
  | nil => simp [fitO]
  | cons x a ih => simp [fitO, ih, Bool.and_assoc]

theorem fitO_of : ∀ a : List Expr, fitL T false a = true → fitO T false a = true := by
  intro a
  induction a with
  | nil => intro _; rfl
  | cons x a ih => intro h; simp only [fitL, fitO, Bool.and_eq_true, Bool.or_eq_true] at h ⊢; exact ⟨.inr h.1, ih h.2⟩

theorem fit_mkBinary (x : Expr) (p : Pos) (op : Bytes) (y : Expr) : fit T false (mkBinary x p op y) = (T op && (fit T false x && fit T false y)) := by
  unfold mkBinary
  dsimp only
  split <;> rfl

theorem fit_tupleAppend (x y : Expr) (hx : fit T false x = true) (hy : fit T false y = true) : fit T false (tupleAppend x y) = true := by
  unfold tupleAppend
  split
  · simp only [fit, fitO, fitO_append, Bool.and_eq_true] at hx ⊢
    simp_all
  · simp_all [fit, fitO]

theorem QTok.text {k ts v} (h : QTok T k ts v) (hp : ∀ s : Bytes, 10 ∉ s → T s = true) (h1 : k ≠ K.string) (h2 : k ≠ K.newline) (h3 : k ≠ K.comment) : T v.tok = true :=
  hp _ (h.plain h1 h2 h3)

theorem fit_setComments (x : Expr) (c : Comments) : fit T false (x.setComments c) = fit T false x ∧ (x.setComments c).isNil = x.isNil := by
  cases x <;> exact ⟨rfl, rfl⟩

theorem fitO_modLast (f : Expr → Expr) (hf : ∀ x, (f x).isNil = x.isNil ∧ fit T false (f x) = fit T false x) : ∀ l, fitO T false (modLast f l) = fitO T false l
  | [] => rfl
  | [x] => by simp only [modLast, fitO, (hf x).1, (hf x).2]
  | x :: y :: l => by
    have := fitO_modLast f hf (y :: l)
    simp only [modLast, fitO] at this ⊢
    rw [this]

theorem fitO_modHead (f : Expr → Expr) (hf : ∀ x, (f x).isNil = x.isNil ∧ fit T false (f x) = fit T false x) : ∀ l, fitO T false (modHead f l) = fitO T false l
  | [] => rfl
  | x :: l => by simp only [modHead, fitO, (hf x).1, (hf x).2]

theorem keep_setAfter (c : List Comment) (x : Expr) : (setAfter c x).isNil = x.isNil ∧ fit T false (setAfter c x) = fit T false x :=
  ⟨(fit_setComments (T := T) x _).2, (fit_setComments x _).1⟩
theorem keep_setBefore (c : List Comment) (x : Expr) : (setBefore c x).isNil = x.isNil ∧ fit T false (setBefore c x) = fit T false x :=
  ⟨(fit_setComments (T := T) x _).2, (fit_setComments x _).1⟩

theorem modLast_nil (f : Expr → Expr) : ∀ l, modLast f l = [] ↔ l = []
  | [] => Iff.rfl
  | [x] => by simp [modLast]
  | x :: y :: l => by simp [modLast]

theorem modHead_nil (f : Expr → Expr) : ∀ l, modHead f l = [] ↔ l = []
  | [] => Iff.rfl
  | x :: l => by simp [modHead]

theorem solid_mkBinary (x : Expr) (p : Pos) (op : Bytes) (y : Expr) : solid (mkBinary x p op y) = true := by
  unfold mkBinary
  dsimp only
  split <;> rfl

theorem fit_notNil {x : Expr} (h : fit T false x = true) : x.isNil = false := by
  cases x with
  | nil => cases h
  | _ => rfl

/-- closes the steps without case distinctions -/
macro "qauto" : tactic => `(tactic| (
  simp only [Q, QSym] at *
  first
  | trivial
  | assumption
  | (simp_all [fit, fitL, fitO, fitH, fitL_append, fitO_append, fit_mkBinary, fit_tupleAppend, mkUnary, Expr.isNil, mkTyped, asString, asIdent, fitPair,
      solid_mkBinary]; done)
  | (refine ⟨?_, rfl⟩
     simp_all [fit, fitL, fitO, fitH, fitL_append, fitO_append, mkUnary, Expr.isNil, mkTyped]; done)
  | skip))


theorem fr1 (hp : ∀ s : Bytes, 10 ∉ s → T s = true) : QStep T 0 := q2 rfl fun t1 t2 v1 v2 v _ h1 h2 h => by
  cases h
  have e2 := QTok.text h2 hp (by decide) (by decide) (by decide)
  qauto

theorem fr3 (hp : ∀ s : Bytes, 10 ∉ s → T s = true) : QStep T 2 := q2 rfl fun t1 t2 v1 v2 v _ h1 h2 h => by
  cases h
  qauto

theorem fr4 (hp : ∀ s : Bytes, 10 ∉ s → T s = true) : QStep T 3 := q0 rfl fun  v _  h => by
  cases h
  qauto

theorem fr5 (hp : ∀ s : Bytes, 10 ∉ s → T s = true) : QStep T 4 := q2 rfl fun t1 t2 v1 v2 v _ h1 h2 h => by
  cases h
  qauto

theorem fr6 (hp : ∀ s : Bytes, 10 ∉ s → T s = true) : QStep T 5 := q0 rfl fun  v _  h => by
  cases h
  qauto

theorem fr8 (hp : ∀ s : Bytes, 10 ∉ s → T s = true) : QStep T 7 := q2 rfl fun t1 t2 v1 v2 v _ h1 h2 h => by
  cases h
  qauto

theorem fr9 (hp : ∀ s : Bytes, 10 ∉ s → T s = true) : QStep T 8 := q0 rfl fun  v _  h => by
  cases h
  qauto

theorem fr13 (hp : ∀ s : Bytes, 10 ∉ s → T s = true) : QStep T 12 := q1 rfl fun t1 v1 v _ h1 h => by
  cases h
  qauto

theorem fr15 (hp : ∀ s : Bytes, 10 ∉ s → T s = true) : QStep T 14 := q5 rfl fun t1 t2 t3 t4 t5 v1 v2 v3 v4 v5 v _ h1 h2 h3 h4 h5 h => by
  cases h
  have e1 := QTok.text h1 hp (by decide) (by decide) (by decide)
  have e2 := QTok.text h2 hp (by decide) (by decide) (by decide)
  have e3 := QTok.text h3 hp (by decide) (by decide) (by decide)
  have e5 := QTok.text h5 hp (by decide) (by decide) (by decide)
  have o4 := fitO_of (T := T) v4.exprs h4
  qauto

theorem fr16 (hp : ∀ s : Bytes, 10 ∉ s → T s = true) : QStep T 15 := q1 rfl fun t1 v1 v _ h1 h => by
  cases h
  qauto

theorem fr19 (hp : ∀ s : Bytes, 10 ∉ s → T s = true) : QStep T 18 := q6 rfl fun t1 t2 t3 t4 t5 t6 v1 v2 v3 v4 v5 v6 v _ h1 h2 h3 h4 h5 h6 h => by
  cases h
  have e1 := QTok.text h1 hp (by decide) (by decide) (by decide)
  have e3 := QTok.text h3 hp (by decide) (by decide) (by decide)
  have e5 := QTok.text h5 hp (by decide) (by decide) (by decide)
  qauto

theorem fr20 (hp : ∀ s : Bytes, 10 ∉ s → T s = true) : QStep T 19 := q1 rfl fun t1 v1 v _ h1 h => by
  cases h
  qauto

theorem fr21 (hp : ∀ s : Bytes, 10 ∉ s → T s = true) : QStep T 20 := q4 rfl fun t1 t2 t3 t4 v1 v2 v3 v4 v _ h1 h2 h3 h4 h => by
  cases h
  have e1 := QTok.text h1 hp (by decide) (by decide) (by decide)
  have e3 := QTok.text h3 hp (by decide) (by decide) (by decide)
  qauto

theorem fr23 (hp : ∀ s : Bytes, 10 ∉ s → T s = true) : QStep T 22 := q1 rfl fun t1 v1 v _ h1 h => by
  cases h
  qauto

theorem fr25 (hp : ∀ s : Bytes, 10 ∉ s → T s = true) : QStep T 24 := q2 rfl fun t1 t2 v1 v2 v _ h1 h2 h => by
  cases h
  have e1 := QTok.text h1 hp (by decide) (by decide) (by decide)
  have e2 := QTok.text h2 hp (by decide) (by decide) (by decide)
  qauto

theorem fr26 (hp : ∀ s : Bytes, 10 ∉ s → T s = true) : QStep T 25 := q1 rfl fun t1 v1 v _ h1 h => by
  cases h
  have e1 := QTok.text h1 hp (by decide) (by decide) (by decide)
  qauto

theorem fr27 (hp : ∀ s : Bytes, 10 ∉ s → T s = true) : QStep T 26 := q4 rfl fun t1 t2 t3 t4 v1 v2 v3 v4 v _ h1 h2 h3 h4 h => by
  cases h
  qauto

theorem fr28 (hp : ∀ s : Bytes, 10 ∉ s → T s = true) : QStep T 27 := q0 rfl fun  v _  h => by
  cases h
  qauto

theorem fr29 (hp : ∀ s : Bytes, 10 ∉ s → T s = true) : QStep T 28 := q3 rfl fun t1 t2 t3 v1 v2 v3 v _ h1 h2 h3 h => by
  cases h
  have e2 := QTok.text h2 hp (by decide) (by decide) (by decide)
  qauto

theorem fr30 (hp : ∀ s : Bytes, 10 ∉ s → T s = true) : QStep T 29 := q1 rfl fun t1 v1 v _ h1 h => by
  cases h
  qauto

theorem fr31 (hp : ∀ s : Bytes, 10 ∉ s → T s = true) : QStep T 30 := q2 rfl fun t1 t2 v1 v2 v _ h1 h2 h => by
  cases h
  have e1 := QTok.text h1 hp (by decide) (by decide) (by decide)
  qauto

theorem fr32 (hp : ∀ s : Bytes, 10 ∉ s → T s = true) : QStep T 31 := q1 rfl fun t1 v1 v _ h1 h => by
  cases h
  have e1 := QTok.text h1 hp (by decide) (by decide) (by decide)
  qauto

theorem fr33 (hp : ∀ s : Bytes, 10 ∉ s → T s = true) : QStep T 32 := q3 rfl fun t1 t2 t3 v1 v2 v3 v _ h1 h2 h3 h => by
  cases h
  have e2 := QTok.text h2 hp (by decide) (by decide) (by decide)
  qauto

theorem fr34 (hp : ∀ s : Bytes, 10 ∉ s → T s = true) : QStep T 33 := q3 rfl fun t1 t2 t3 v1 v2 v3 v _ h1 h2 h3 h => by
  cases h
  have e2 := QTok.text h2 hp (by decide) (by decide) (by decide)
  qauto

theorem fr35 (hp : ∀ s : Bytes, 10 ∉ s → T s = true) : QStep T 34 := q1 rfl fun t1 v1 v _ h1 h => by
  cases h
  have e1 := QTok.text h1 hp (by decide) (by decide) (by decide)
  qauto

theorem fr36 (hp : ∀ s : Bytes, 10 ∉ s → T s = true) : QStep T 35 := q1 rfl fun t1 v1 v _ h1 h => by
  cases h
  have e1 := QTok.text h1 hp (by decide) (by decide) (by decide)
  qauto

theorem fr37 (hp : ∀ s : Bytes, 10 ∉ s → T s = true) : QStep T 36 := q1 rfl fun t1 v1 v _ h1 h => by
  cases h
  have e1 := QTok.text h1 hp (by decide) (by decide) (by decide)
  qauto

theorem fr38 (hp : ∀ s : Bytes, 10 ∉ s → T s = true) : QStep T 37 := q0 rfl fun  v _  h => by
  cases h
  qauto

theorem fr39 (hp : ∀ s : Bytes, 10 ∉ s → T s = true) : QStep T 38 := q1 rfl fun t1 v1 v _ h1 h => by
  cases h
  have e1 := QTok.text h1 hp (by decide) (by decide) (by decide)
  qauto

theorem fr41 (hp : ∀ s : Bytes, 10 ∉ s → T s = true) : QStep T 40 := q1 rfl fun t1 v1 v _ h1 h => by
  cases h
  qauto

theorem fr43 (hp : ∀ s : Bytes, 10 ∉ s → T s = true) : QStep T 42 := q3 rfl fun t1 t2 t3 v1 v2 v3 v _ h1 h2 h3 h => by
  cases h
  have e2 := QTok.text h2 hp (by decide) (by decide) (by decide)
  have e3 := QTok.text h3 hp (by decide) (by decide) (by decide)
  qauto

theorem fr45 (hp : ∀ s : Bytes, 10 ∉ s → T s = true) : QStep T 44 := q4 rfl fun t1 t2 t3 t4 v1 v2 v3 v4 v _ h1 h2 h3 h4 h => by
  cases h
  have e2 := QTok.text h2 hp (by decide) (by decide) (by decide)
  have e4 := QTok.text h4 hp (by decide) (by decide) (by decide)
  have o3 := fitO_of (T := T) v3.exprs h3
  qauto

theorem fr46 (hp : ∀ s : Bytes, 10 ∉ s → T s = true) : QStep T 45 := q4 rfl fun t1 t2 t3 t4 v1 v2 v3 v4 v _ h1 h2 h3 h4 h => by
  cases h
  have e2 := QTok.text h2 hp (by decide) (by decide) (by decide)
  have e4 := QTok.text h4 hp (by decide) (by decide) (by decide)
  qauto

theorem fr47 (hp : ∀ s : Bytes, 10 ∉ s → T s = true) : QStep T 46 := q6 rfl fun t1 t2 t3 t4 t5 t6 v1 v2 v3 v4 v5 v6 v _ h1 h2 h3 h4 h5 h6 h => by
  cases h
  have e2 := QTok.text h2 hp (by decide) (by decide) (by decide)
  have e4 := QTok.text h4 hp (by decide) (by decide) (by decide)
  have e6 := QTok.text h6 hp (by decide) (by decide) (by decide)
  qauto

theorem fr48 (hp : ∀ s : Bytes, 10 ∉ s → T s = true) : QStep T 47 := q8 rfl fun t1 t2 t3 t4 t5 t6 t7 t8 v1 v2 v3 v4 v5 v6 v7 v8 v _ h1 h2 h3 h4 h5 h6 h7 h8 h => by
  cases h
  have e2 := QTok.text h2 hp (by decide) (by decide) (by decide)
  have e4 := QTok.text h4 hp (by decide) (by decide) (by decide)
  have e6 := QTok.text h6 hp (by decide) (by decide) (by decide)
  have e8 := QTok.text h8 hp (by decide) (by decide) (by decide)
  qauto

theorem fr49 (hp : ∀ s : Bytes, 10 ∉ s → T s = true) : QStep T 48 := q3 rfl fun t1 t2 t3 v1 v2 v3 v _ h1 h2 h3 h => by
  cases h
  have e1 := QTok.text h1 hp (by decide) (by decide) (by decide)
  have e3 := QTok.text h3 hp (by decide) (by decide) (by decide)
  have o2 := fitO_of (T := T) v2.exprs h2
  qauto

theorem fr50 (hp : ∀ s : Bytes, 10 ∉ s → T s = true) : QStep T 49 := q4 rfl fun t1 t2 t3 t4 v1 v2 v3 v4 v _ h1 h2 h3 h4 h => by
  cases h
  have e1 := QTok.text h1 hp (by decide) (by decide) (by decide)
  have e4 := QTok.text h4 hp (by decide) (by decide) (by decide)
  have o3 := fitO_of (T := T) v3.exprs h3
  qauto

theorem fr51 (hp : ∀ s : Bytes, 10 ∉ s → T s = true) : QStep T 50 := q4 rfl fun t1 t2 t3 t4 v1 v2 v3 v4 v _ h1 h2 h3 h4 h => by
  cases h
  have e1 := QTok.text h1 hp (by decide) (by decide) (by decide)
  have e4 := QTok.text h4 hp (by decide) (by decide) (by decide)
  have o3 := fitO_of (T := T) v3.exprs h3
  qauto

theorem fr52 (hp : ∀ s : Bytes, 10 ∉ s → T s = true) : QStep T 51 := q3 rfl fun t1 t2 t3 v1 v2 v3 v _ h1 h2 h3 h => by
  cases h
  have e1 := QTok.text h1 hp (by decide) (by decide) (by decide)
  have e3 := QTok.text h3 hp (by decide) (by decide) (by decide)
  have o2 := fitO_of (T := T) v2.exprs h2
  qauto

theorem fr53 (hp : ∀ s : Bytes, 10 ∉ s → T s = true) : QStep T 52 := q4 rfl fun t1 t2 t3 t4 v1 v2 v3 v4 v _ h1 h2 h3 h4 h => by
  cases h
  have e1 := QTok.text h1 hp (by decide) (by decide) (by decide)
  have e4 := QTok.text h4 hp (by decide) (by decide) (by decide)
  have o2 := fitO_of (T := T) v2.exprs h2
  qauto

theorem fr55 (hp : ∀ s : Bytes, 10 ∉ s → T s = true) : QStep T 54 := q0 rfl fun  v _  h => by
  cases h
  qauto

theorem fr56 (hp : ∀ s : Bytes, 10 ∉ s → T s = true) : QStep T 55 := q2 rfl fun t1 t2 v1 v2 v _ h1 h2 h => by
  cases h
  have o1 := fitO_of (T := T) v1.exprs h1
  qauto

theorem fr57 (hp : ∀ s : Bytes, 10 ∉ s → T s = true) : QStep T 56 := q2 rfl fun t1 t2 v1 v2 v _ h1 h2 h => by
  cases h
  qauto

theorem fr58 (hp : ∀ s : Bytes, 10 ∉ s → T s = true) : QStep T 57 := q3 rfl fun t1 t2 t3 v1 v2 v3 v _ h1 h2 h3 h => by
  cases h
  have o1 := fitO_of (T := T) v1.exprs h1
  qauto

theorem fr59 (hp : ∀ s : Bytes, 10 ∉ s → T s = true) : QStep T 58 := q1 rfl fun t1 v1 v _ h1 h => by
  cases h
  qauto

theorem fr60 (hp : ∀ s : Bytes, 10 ∉ s → T s = true) : QStep T 59 := q3 rfl fun t1 t2 t3 v1 v2 v3 v _ h1 h2 h3 h => by
  cases h
  have e2 := QTok.text h2 hp (by decide) (by decide) (by decide)
  obtain ⟨n1, g1, k1⟩ := h1
  qauto

theorem fr61 (hp : ∀ s : Bytes, 10 ∉ s → T s = true) : QStep T 60 := q2 rfl fun t1 t2 v1 v2 v _ h1 h2 h => by
  cases h
  have e1 := QTok.text h1 hp (by decide) (by decide) (by decide)
  qauto

theorem fr62 (hp : ∀ s : Bytes, 10 ∉ s → T s = true) : QStep T 61 := q2 rfl fun t1 t2 v1 v2 v _ h1 h2 h => by
  cases h
  have e1 := QTok.text h1 hp (by decide) (by decide) (by decide)
  qauto

theorem fr63 (hp : ∀ s : Bytes, 10 ∉ s → T s = true) : QStep T 62 := q1 rfl fun t1 v1 v _ h1 h => by
  cases h
  qauto

theorem fr65 (hp : ∀ s : Bytes, 10 ∉ s → T s = true) : QStep T 64 := q1 rfl fun t1 v1 v _ h1 h => by
  cases h
  obtain ⟨n1, g1, k1, l1⟩ := h1
  qauto

theorem fr66 (hp : ∀ s : Bytes, 10 ∉ s → T s = true) : QStep T 65 := q3 rfl fun t1 t2 t3 v1 v2 v3 v _ h1 h2 h3 h => by
  cases h
  have e2 := QTok.text h2 hp (by decide) (by decide) (by decide)
  obtain ⟨n1, g1, k1⟩ := h1
  obtain ⟨n3, g3, k3, l3⟩ := h3
  qauto

theorem fr67 (hp : ∀ s : Bytes, 10 ∉ s → T s = true) : QStep T 66 := q0 rfl fun  v _  h => by
  cases h
  qauto

theorem fr68 (hp : ∀ s : Bytes, 10 ∉ s → T s = true) : QStep T 67 := q2 rfl fun t1 t2 v1 v2 v _ h1 h2 h => by
  cases h
  have o1 := fitO_of (T := T) v1.exprs h1
  qauto

theorem fr69 (hp : ∀ s : Bytes, 10 ∉ s → T s = true) : QStep T 68 := q0 rfl fun  v _  h => by
  cases h
  qauto

theorem fr70 (hp : ∀ s : Bytes, 10 ∉ s → T s = true) : QStep T 69 := q2 rfl fun t1 t2 v1 v2 v _ h1 h2 h => by
  cases h
  have o1 := fitO_of (T := T) v1.exprs h1
  qauto

theorem fr71 (hp : ∀ s : Bytes, 10 ∉ s → T s = true) : QStep T 70 := q1 rfl fun t1 v1 v _ h1 h => by
  cases h
  qauto

theorem fr72 (hp : ∀ s : Bytes, 10 ∉ s → T s = true) : QStep T 71 := q3 rfl fun t1 t2 t3 v1 v2 v3 v _ h1 h2 h3 h => by
  cases h
  have e2 := QTok.text h2 hp (by decide) (by decide) (by decide)
  have o1 := fitO_of (T := T) v1.exprs h1
  qauto

theorem fr73 (hp : ∀ s : Bytes, 10 ∉ s → T s = true) : QStep T 72 := q1 rfl fun t1 v1 v _ h1 h => by
  cases h
  qauto

theorem fr74 (hp : ∀ s : Bytes, 10 ∉ s → T s = true) : QStep T 73 := q3 rfl fun t1 t2 t3 v1 v2 v3 v _ h1 h2 h3 h => by
  cases h
  have e2 := QTok.text h2 hp (by decide) (by decide) (by decide)
  have o1 := fitO_of (T := T) v1.exprs h1
  qauto

theorem fr75 (hp : ∀ s : Bytes, 10 ∉ s → T s = true) : QStep T 74 := q1 rfl fun t1 v1 v _ h1 h => by
  cases h
  obtain ⟨n1, g1, k1⟩ := h1
  qauto

theorem fr76 (hp : ∀ s : Bytes, 10 ∉ s → T s = true) : QStep T 75 := q3 rfl fun t1 t2 t3 v1 v2 v3 v _ h1 h2 h3 h => by
  cases h
  have e2 := QTok.text h2 hp (by decide) (by decide) (by decide)
  obtain ⟨n1, g1, k1⟩ := h1
  qauto

theorem fr77 (hp : ∀ s : Bytes, 10 ∉ s → T s = true) : QStep T 76 := q2 rfl fun t1 t2 v1 v2 v _ h1 h2 h => by
  cases h
  have e1 := QTok.text h1 hp (by decide) (by decide) (by decide)
  obtain ⟨n2, g2, k2⟩ := h2
  qauto

theorem fr78 (hp : ∀ s : Bytes, 10 ∉ s → T s = true) : QStep T 77 := q1 rfl fun t1 v1 v _ h1 h => by
  cases h
  have e1 := QTok.text h1 hp (by decide) (by decide) (by decide)
  qauto

theorem fr79 (hp : ∀ s : Bytes, 10 ∉ s → T s = true) : QStep T 78 := q2 rfl fun t1 t2 v1 v2 v _ h1 h2 h => by
  cases h
  have e1 := QTok.text h1 hp (by decide) (by decide) (by decide)
  obtain ⟨n2, g2, k2⟩ := h2
  qauto

theorem fr80 (hp : ∀ s : Bytes, 10 ∉ s → T s = true) : QStep T 79 := q1 rfl fun t1 v1 v _ h1 h => by
  cases h
  qauto

theorem fr81 (hp : ∀ s : Bytes, 10 ∉ s → T s = true) : QStep T 80 := q3 rfl fun t1 t2 t3 v1 v2 v3 v _ h1 h2 h3 h => by
  cases h
  have e2 := QTok.text h2 hp (by decide) (by decide) (by decide)
  obtain ⟨n1, g1, k1⟩ := h1
  qauto

theorem fr82 (hp : ∀ s : Bytes, 10 ∉ s → T s = true) : QStep T 81 := q5 rfl fun t1 t2 t3 t4 t5 v1 v2 v3 v4 v5 v _ h1 h2 h3 h4 h5 h => by
  cases h
  have e2 := QTok.text h2 hp (by decide) (by decide) (by decide)
  have e4 := QTok.text h4 hp (by decide) (by decide) (by decide)
  obtain ⟨n1, g1, k1⟩ := h1
  qauto

theorem fr83 (hp : ∀ s : Bytes, 10 ∉ s → T s = true) : QStep T 82 := q4 rfl fun t1 t2 t3 t4 v1 v2 v3 v4 v _ h1 h2 h3 h4 h => by
  cases h
  have e1 := QTok.text h1 hp (by decide) (by decide) (by decide)
  have e3 := QTok.text h3 hp (by decide) (by decide) (by decide)
  obtain ⟨n2, g2, k2⟩ := h2
  qauto

theorem fr84 (hp : ∀ s : Bytes, 10 ∉ s → T s = true) : QStep T 83 := q4 rfl fun t1 t2 t3 t4 v1 v2 v3 v4 v _ h1 h2 h3 h4 h => by
  cases h
  have e1 := QTok.text h1 hp (by decide) (by decide) (by decide)
  have e3 := QTok.text h3 hp (by decide) (by decide) (by decide)
  obtain ⟨n2, g2, k2⟩ := h2
  qauto

theorem fr85 (hp : ∀ s : Bytes, 10 ∉ s → T s = true) : QStep T 84 := q1 rfl fun t1 v1 v _ h1 h => by
  cases h
  qauto

theorem fr86 (hp : ∀ s : Bytes, 10 ∉ s → T s = true) : QStep T 85 := q3 rfl fun t1 t2 t3 v1 v2 v3 v _ h1 h2 h3 h => by
  cases h
  have e2 := QTok.text h2 hp (by decide) (by decide) (by decide)
  qauto

theorem fr87 (hp : ∀ s : Bytes, 10 ∉ s → T s = true) : QStep T 86 := q0 rfl fun  v _  h => by
  cases h
  qauto

theorem fr88 (hp : ∀ s : Bytes, 10 ∉ s → T s = true) : QStep T 87 := q1 rfl fun t1 v1 v _ h1 h => by
  cases h
  qauto

theorem fr89 (hp : ∀ s : Bytes, 10 ∉ s → T s = true) : QStep T 88 := q1 rfl fun t1 v1 v _ h1 h => by
  cases h
  qauto

theorem fr90 (hp : ∀ s : Bytes, 10 ∉ s → T s = true) : QStep T 89 := q4 rfl fun t1 t2 t3 t4 v1 v2 v3 v4 v _ h1 h2 h3 h4 h => by
  cases h
  have e1 := QTok.text h1 hp (by decide) (by decide) (by decide)
  have e3 := QTok.text h3 hp (by decide) (by decide) (by decide)
  have o2 := fitO_of (T := T) v2.exprs h2
  qauto

theorem fr95 (hp : ∀ s : Bytes, 10 ∉ s → T s = true) : QStep T 94 := q3 rfl fun t1 t2 t3 v1 v2 v3 v _ h1 h2 h3 h => by
  cases h
  have e2 := QTok.text h2 hp (by decide) (by decide) (by decide)
  qauto

theorem fr96 (hp : ∀ s : Bytes, 10 ∉ s → T s = true) : QStep T 95 := q3 rfl fun t1 t2 t3 v1 v2 v3 v _ h1 h2 h3 h => by
  cases h
  have e2 := QTok.text h2 hp (by decide) (by decide) (by decide)
  qauto

theorem fr97 (hp : ∀ s : Bytes, 10 ∉ s → T s = true) : QStep T 96 := q3 rfl fun t1 t2 t3 v1 v2 v3 v _ h1 h2 h3 h => by
  cases h
  have e2 := QTok.text h2 hp (by decide) (by decide) (by decide)
  qauto

theorem fr98 (hp : ∀ s : Bytes, 10 ∉ s → T s = true) : QStep T 97 := q3 rfl fun t1 t2 t3 v1 v2 v3 v _ h1 h2 h3 h => by
  cases h
  have e2 := QTok.text h2 hp (by decide) (by decide) (by decide)
  qauto

theorem fr99 (hp : ∀ s : Bytes, 10 ∉ s → T s = true) : QStep T 98 := q3 rfl fun t1 t2 t3 v1 v2 v3 v _ h1 h2 h3 h => by
  cases h
  have e2 := QTok.text h2 hp (by decide) (by decide) (by decide)
  qauto

theorem fr100 (hp : ∀ s : Bytes, 10 ∉ s → T s = true) : QStep T 99 := q3 rfl fun t1 t2 t3 v1 v2 v3 v _ h1 h2 h3 h => by
  cases h
  have e2 := QTok.text h2 hp (by decide) (by decide) (by decide)
  qauto

theorem fr101 (hp : ∀ s : Bytes, 10 ∉ s → T s = true) : QStep T 100 := q3 rfl fun t1 t2 t3 v1 v2 v3 v _ h1 h2 h3 h => by
  cases h
  have e2 := QTok.text h2 hp (by decide) (by decide) (by decide)
  qauto

theorem fr102 (hp : ∀ s : Bytes, 10 ∉ s → T s = true) : QStep T 101 := q3 rfl fun t1 t2 t3 v1 v2 v3 v _ h1 h2 h3 h => by
  cases h
  have e2 := QTok.text h2 hp (by decide) (by decide) (by decide)
  qauto

theorem fr103 (hp : ∀ s : Bytes, 10 ∉ s → T s = true) : QStep T 102 := q3 rfl fun t1 t2 t3 v1 v2 v3 v _ h1 h2 h3 h => by
  cases h
  have e2 := QTok.text h2 hp (by decide) (by decide) (by decide)
  qauto

theorem fr104 (hp : ∀ s : Bytes, 10 ∉ s → T s = true) : QStep T 103 := q3 rfl fun t1 t2 t3 v1 v2 v3 v _ h1 h2 h3 h => by
  cases h
  have e2 := QTok.text h2 hp (by decide) (by decide) (by decide)
  qauto

theorem fr105 (hp : ∀ s : Bytes, 10 ∉ s → T s = true) : QStep T 104 := q3 rfl fun t1 t2 t3 v1 v2 v3 v _ h1 h2 h3 h => by
  cases h
  have e2 := QTok.text h2 hp (by decide) (by decide) (by decide)
  qauto

theorem fr106 (hp : ∀ s : Bytes, 10 ∉ s → T s = true) : QStep T 105 := q3 rfl fun t1 t2 t3 v1 v2 v3 v _ h1 h2 h3 h => by
  cases h
  have e2 := QTok.text h2 hp (by decide) (by decide) (by decide)
  qauto

theorem fr107 (hp : ∀ s : Bytes, 10 ∉ s → T s = true) : QStep T 106 := q3 rfl fun t1 t2 t3 v1 v2 v3 v _ h1 h2 h3 h => by
  cases h
  have e2 := QTok.text h2 hp (by decide) (by decide) (by decide)
  qauto

theorem fr108 (hp : ∀ s : Bytes, 10 ∉ s → T s = true) : QStep T 107 := q4 rfl fun t1 t2 t3 t4 v1 v2 v3 v4 v _ h1 h2 h3 h4 h => by
  cases h
  have e2 := QTok.text h2 hp (by decide) (by decide) (by decide)
  have e3 := QTok.text h3 hp (by decide) (by decide) (by decide)
  qauto

theorem fr109 (hp : ∀ s : Bytes, 10 ∉ s → T s = true) : QStep T 108 := q3 rfl fun t1 t2 t3 v1 v2 v3 v _ h1 h2 h3 h => by
  cases h
  have e2 := QTok.text h2 hp (by decide) (by decide) (by decide)
  qauto

theorem fr110 (hp : ∀ s : Bytes, 10 ∉ s → T s = true) : QStep T 109 := q3 rfl fun t1 t2 t3 v1 v2 v3 v _ h1 h2 h3 h => by
  cases h
  have e2 := QTok.text h2 hp (by decide) (by decide) (by decide)
  qauto

theorem fr111 (hp : ∀ s : Bytes, 10 ∉ s → T s = true) : QStep T 110 := q3 rfl fun t1 t2 t3 v1 v2 v3 v _ h1 h2 h3 h => by
  cases h
  have e2 := QTok.text h2 hp (by decide) (by decide) (by decide)
  qauto

theorem fr112 (hp : ∀ s : Bytes, 10 ∉ s → T s = true) : QStep T 111 := q3 rfl fun t1 t2 t3 v1 v2 v3 v _ h1 h2 h3 h => by
  cases h
  have e2 := QTok.text h2 hp (by decide) (by decide) (by decide)
  qauto

theorem fr113 (hp : ∀ s : Bytes, 10 ∉ s → T s = true) : QStep T 112 := q3 rfl fun t1 t2 t3 v1 v2 v3 v _ h1 h2 h3 h => by
  cases h
  have e2 := QTok.text h2 hp (by decide) (by decide) (by decide)
  qauto

theorem fr114 (hp : ∀ s : Bytes, 10 ∉ s → T s = true) : QStep T 113 := q3 rfl fun t1 t2 t3 v1 v2 v3 v _ h1 h2 h3 h => by
  cases h
  have e2 := QTok.text h2 hp (by decide) (by decide) (by decide)
  qauto

theorem fr115 (hp : ∀ s : Bytes, 10 ∉ s → T s = true) : QStep T 114 := q3 rfl fun t1 t2 t3 v1 v2 v3 v _ h1 h2 h3 h => by
  cases h
  have e2 := QTok.text h2 hp (by decide) (by decide) (by decide)
  qauto

theorem fr117 (hp : ∀ s : Bytes, 10 ∉ s → T s = true) : QStep T 116 := q5 rfl fun t1 t2 t3 t4 t5 v1 v2 v3 v4 v5 v _ h1 h2 h3 h4 h5 h => by
  cases h
  have e2 := QTok.text h2 hp (by decide) (by decide) (by decide)
  have e4 := QTok.text h4 hp (by decide) (by decide) (by decide)
  qauto

theorem fr118 (hp : ∀ s : Bytes, 10 ∉ s → T s = true) : QStep T 117 := q1 rfl fun t1 v1 v _ h1 h => by
  cases h
  qauto

theorem fr119 (hp : ∀ s : Bytes, 10 ∉ s → T s = true) : QStep T 118 := q3 rfl fun t1 t2 t3 v1 v2 v3 v _ h1 h2 h3 h => by
  cases h
  have o1 := fitO_of (T := T) v1.exprs h1
  qauto

theorem fr120 (hp : ∀ s : Bytes, 10 ∉ s → T s = true) : QStep T 119 := q0 rfl fun  v _  h => by
  cases h
  qauto

theorem fr121 (hp : ∀ s : Bytes, 10 ∉ s → T s = true) : QStep T 120 := q1 rfl fun t1 v1 v _ h1 h => by
  cases h
  qauto

theorem fr122 (hp : ∀ s : Bytes, 10 ∉ s → T s = true) : QStep T 121 := q0 rfl fun  v _  h => by
  cases h
  qauto

theorem fr123 (hp : ∀ s : Bytes, 10 ∉ s → T s = true) : QStep T 122 := q2 rfl fun t1 t2 v1 v2 v _ h1 h2 h => by
  cases h
  have o1 := fitO_of (T := T) v1.exprs h1
  qauto

theorem fr124 (hp : ∀ s : Bytes, 10 ∉ s → T s = true) : QStep T 123 := q0 rfl fun  v _  h => by
  cases h
  qauto

theorem fr125 (hp : ∀ s : Bytes, 10 ∉ s → T s = true) : QStep T 124 := q1 rfl fun t1 v1 v _ h1 h => by
  cases h
  have e1 := QTok.text h1 hp (by decide) (by decide) (by decide)
  qauto

theorem fr126 (hp : ∀ s : Bytes, 10 ∉ s → T s = true) : QStep T 125 := q1 rfl fun t1 v1 v _ h1 h => by
  cases h
  have e1 := QTok.text h1 hp (by decide) (by decide) (by decide)
  qauto

theorem fr127 (hp : ∀ s : Bytes, 10 ∉ s → T s = true) : QStep T 126 := q2 rfl fun t1 t2 v1 v2 v _ h1 h2 h => by
  cases h
  have e2 := QTok.text h2 hp (by decide) (by decide) (by decide)
  qauto

theorem fr128 (hp : ∀ s : Bytes, 10 ∉ s → T s = true) : QStep T 127 := q0 rfl fun  v _  h => by
  cases h
  qauto

theorem fr129 (hp : ∀ s : Bytes, 10 ∉ s → T s = true) : QStep T 128 := q1 rfl fun t1 v1 v _ h1 h => by
  cases h
  qauto

theorem fr130 (hp : ∀ s : Bytes, 10 ∉ s → T s = true) : QStep T 129 := q3 rfl fun t1 t2 t3 v1 v2 v3 v _ h1 h2 h3 h => by
  cases h
  have e2 := QTok.text h2 hp (by decide) (by decide) (by decide)
  qauto

theorem fr131 (hp : ∀ s : Bytes, 10 ∉ s → T s = true) : QStep T 130 := q1 rfl fun t1 v1 v _ h1 h => by
  cases h
  qauto

theorem fr132 (hp : ∀ s : Bytes, 10 ∉ s → T s = true) : QStep T 131 := q3 rfl fun t1 t2 t3 v1 v2 v3 v _ h1 h2 h3 h => by
  cases h
  have o1 := fitO_of (T := T) v1.exprs h1
  qauto

theorem fr133 (hp : ∀ s : Bytes, 10 ∉ s → T s = true) : QStep T 132 := q0 rfl fun  v _  h => by
  cases h
  qauto

theorem fr134 (hp : ∀ s : Bytes, 10 ∉ s → T s = true) : QStep T 133 := q1 rfl fun t1 v1 v _ h1 h => by
  cases h
  have o1 := fitO_of (T := T) v1.exprs h1
  qauto

theorem fr135 (hp : ∀ s : Bytes, 10 ∉ s → T s = true) : QStep T 134 := q2 rfl fun t1 t2 v1 v2 v _ h1 h2 h => by
  cases h
  have o1 := fitO_of (T := T) v1.exprs h1
  qauto

theorem fr136 (hp : ∀ s : Bytes, 10 ∉ s → T s = true) : QStep T 135 := q1 rfl fun t1 v1 v _ h1 h => by
  cases h
  qauto

theorem fr137 (hp : ∀ s : Bytes, 10 ∉ s → T s = true) : QStep T 136 := q3 rfl fun t1 t2 t3 v1 v2 v3 v _ h1 h2 h3 h => by
  cases h
  have e2 := QTok.text h2 hp (by decide) (by decide) (by decide)
  qauto

theorem fr139 (hp : ∀ s : Bytes, 10 ∉ s → T s = true) : QStep T 138 := q1 rfl fun t1 v1 v _ h1 h => by
  cases h
  have e1 := QTok.text h1 hp (by decide) (by decide) (by decide)
  qauto

theorem fr143 (hp : ∀ s : Bytes, 10 ∉ s → T s = true) : QStep T 142 := q1 rfl fun t1 v1 v _ h1 h => by
  cases h
  have e1 := QTok.text h1 hp (by decide) (by decide) (by decide)
  qauto

theorem fr144 (hp : ∀ s : Bytes, 10 ∉ s → T s = true) : QStep T 143 := q4 rfl fun t1 t2 t3 t4 v1 v2 v3 v4 v _ h1 h2 h3 h4 h => by
  cases h
  have e1 := QTok.text h1 hp (by decide) (by decide) (by decide)
  have e3 := QTok.text h3 hp (by decide) (by decide) (by decide)
  qauto

theorem fr145 (hp : ∀ s : Bytes, 10 ∉ s → T s = true) : QStep T 144 := q1 rfl fun t1 v1 v _ h1 h => by
  cases h
  qauto

theorem fr146 (hp : ∀ s : Bytes, 10 ∉ s → T s = true) : QStep T 145 := q3 rfl fun t1 t2 t3 v1 v2 v3 v _ h1 h2 h3 h => by
  cases h
  have e2 := QTok.text h2 hp (by decide) (by decide) (by decide)
  have o1 := fitO_of (T := T) v1.exprs h1
  qauto

theorem fr147 (hp : ∀ s : Bytes, 10 ∉ s → T s = true) : QStep T 146 := q1 rfl fun t1 v1 v _ h1 h => by
  cases h
  have o1 := fitO_of (T := T) v1.exprs h1
  qauto

theorem fr148 (hp : ∀ s : Bytes, 10 ∉ s → T s = true) : QStep T 147 := q2 rfl fun t1 t2 v1 v2 v _ h1 h2 h => by
  cases h
  have o1 := fitO_of (T := T) v1.exprs h1
  have o2 := fitO_of (T := T) v2.exprs h2
  qauto

theorem fr11 (hp : ∀ s : Bytes, 10 ∉ s → T s = true) : QStep T 10 := q2 rfl fun t1 t2 v1 v2 v _ h1 h2 h => by
  cases h
  obtain ⟨⟨t, rfl, hk⟩, _, _⟩ := h2
  refine ⟨fun he => ⟨rfl, fun u hu => ?_⟩, h1.2⟩
  rcases List.mem_append.1 hu with hu | hu
  · exact (h1.1 he).2 u hu
  · rw [List.mem_singleton.1 hu, hk]

theorem fr64 (hp : ∀ s : Bytes, 10 ∉ s → T s = true) : QStep T 63 := q3 rfl fun t1 t2 t3 v1 v2 v3 v _ h1 h2 h3 h => by
  cases h
  show (v1.loadargs ++ v3.loadargs).all (fitPair T) = true
  rw [List.all_append, Bool.and_eq_true]
  exact ⟨h1, h3⟩

theorem fr138 (hp : ∀ s : Bytes, 10 ∉ s → T s = true) : QStep T 137 := q1 rfl fun t1 v1 v _ h1 h => by
  cases h
  obtain ⟨_, _, h1⟩ := h1
  exact ⟨_, rfl, (h1 rfl).1, (h1 rfl).2⟩

theorem fr140 (hp : ∀ s : Bytes, 10 ∉ s → T s = true) : QStep T 139 := q3 rfl fun t1 t2 t3 v1 v2 v3 v _ h1 h2 h3 h => by
  cases h
  have e1 := QTok.plain h1 (by decide) (by decide) (by decide)
  have e3 := QTok.plain h3 (by decide) (by decide) (by decide)
  refine ⟨hp _ (show 10 ∉ v1.tok ++ [46] ++ v3.tok from ?_), rfl⟩
  simp [e1, e3]

theorem fr141 (hp : ∀ s : Bytes, 10 ∉ s → T s = true) : QStep T 140 := q2 rfl fun t1 t2 v1 v2 v _ h1 h2 h => by
  cases h
  have e1 := QTok.plain h1 (by decide) (by decide) (by decide)
  refine ⟨hp _ (show 10 ∉ v1.tok ++ [46] from ?_), rfl⟩
  simp [e1]

theorem fr142 (hp : ∀ s : Bytes, 10 ∉ s → T s = true) : QStep T 141 := q2 rfl fun t1 t2 v1 v2 v _ h1 h2 h => by
  cases h
  have e1 := QTok.plain h2 (by decide) (by decide) (by decide)
  refine ⟨hp _ (show 10 ∉ [46] ++ v2.tok from ?_), rfl⟩
  simp [e1]

theorem fit_addComment (v : Val) (p : Pos) (t : Bytes) (h : fitO T false v.exprs = true) : fitO T false (addComment v p t).exprs = true := by
  unfold addComment
  dsimp only
  rw [fitO_modLast _ (fun x => keep_setAfter _ x)]
  split
  · exact h
  · rw [fitO_append, h]; rfl

theorem fr7 (hp : ∀ s : Bytes, 10 ∉ s → T s = true) : QStep T 6 := q3 rfl fun t1 t2 t3 v1 v2 v3 v _ h1 h2 h3 h => by
  cases h
  exact fit_addComment _ _ _ h1

theorem fr12 (hp : ∀ s : Bytes, 10 ∉ s → T s = true) : QStep T 11 := q3 rfl fun t1 t2 t3 v1 v2 v3 v _ h1 h2 h3 h => by
  cases h
  refine ⟨fun he => ?_, fit_addComment _ _ _ h1.2⟩
  exfalso
  have he : modLast _ (if v1.last = true then v1.exprs else v1.exprs ++ [.commentBlock {} v2.pos]) = [] := he
  rw [modLast_nil] at he
  split at he
  · rename_i hl
    rw [(h1.1 he).1] at hl
    cases hl
  · simp at he

theorem fitO_dropLast : ∀ l : List Expr, fitO T false l = true → fitO T false l.dropLast = true
  | [], _ => rfl
  | [x], _ => rfl
  | x :: y :: l, h => by
    have ih := fitO_dropLast (y :: l)
    simp only [fitO, Bool.and_eq_true, List.dropLast] at h ih ⊢
    exact ⟨h.1, ih h.2⟩

theorem fr10 (hp : ∀ s : Bytes, 10 ∉ s → T s = true) : QStep T 9 := q2 rfl fun t1 t2 v1 v2 v _ h1 h2 h => by
  cases h
  obtain ⟨a1, a2⟩ := h1
  obtain ⟨b1, b2⟩ := h2
  have : (addStmt v1 v2).exprs ≠ [] ∧ fitO T false (addStmt v1 v2).exprs = true := by
    unfold addStmt
    split
    · split
      · simp [b1, fitO_append, a2, b2]
      · split
        · simp [b1, modHead_nil, fitO_append, fitO_modHead _ (keep_setBefore _), fitO_dropLast _ a2, b2]
        · simp [b1, modHead_nil, fitO_append, fitO_modHead _ (keep_setBefore _), fitO_modLast _ (keep_setAfter _), a2, b2]
    · simp [b1, fitO_append, a2, b2]
  exact ⟨fun he => absurd he this.1, this.2⟩

theorem fr2 (hp : ∀ s : Bytes, 10 ∉ s → T s = true) : QStep T 1 := q5 rfl fun t1 t2 t3 t4 t5 v1 v2 v3 v4 v5 v hT h1 h2 h3 h4 h5 h => by
  have h : mkSuite v1 v2 v4 = some v := h
  have h2 : fitO T false v2.exprs = true := h2
  obtain ⟨h41, h42⟩ := h4
  have hne : v4.exprs ≠ [] := by
    intro he
    have h41 := (h41 he).2
    obtain ⟨⟨t3, rfl, k3⟩, _⟩ := h3
    obtain ⟨⟨t5, rfl, k5⟩, _⟩ := h5
    cases t4 with
    | nil => exact (hT.block (t1 ++ t2) t3 t5 [] (by simp) k3).2.2 k5
    | cons u t4 => exact (hT.block (t1 ++ t2) t3 u (t4 ++ [t5]) (by simp) k3).1 (h41 u (by simp))
  unfold mkSuite at h
  split at h
  · cases h; exact ⟨hne, h42⟩
  · split at h
    · rename_i s l c hs hc
      split at h
      · cases h
        refine ⟨by simp, ?_⟩
        show fitO T false (v2.exprs.dropLast ++ _) = true
        rw [hs] at h42
        simp only [fitO_append, fitO_dropLast _ h2, fitO, (keep_setBefore (T := T) _ _).1, (keep_setBefore _ _).2, Bool.true_and] at h42 ⊢
        exact h42
      · cases h
        refine ⟨by simp [hne], ?_⟩
        show fitO T false (v2.exprs ++ v4.exprs) = true
        rw [fitO_append, h2, h42]; rfl
    · cases h

theorem splitAt_append : ∀ (l a b : List Expr), splitAtLastStmt l = some (a, b) → l = a ++ b ∧ b ≠ [] := by
  intro l
  induction l with
  | nil => intro a b h; cases h
  | cons x l ih =>
    intro a b h
    unfold splitAtLastStmt at h
    split at h
    · rename_i a' b' h'
      cases h
      obtain ⟨h1, h2⟩ := ih _ _ h'
      exact ⟨by rw [h1]; rfl, h2⟩
    · split at h
      · cases h
      · cases h; exact ⟨rfl, by simp⟩

theorem fit_extractLoop (ind : Nat) : ∀ (l : List Expr) (first : Bool), fitO T false l = true →
    fitO T false (extractLoop ind first l).1 = true ∧ fitO T false (extractLoop ind first l).2 = true ∧ (first = true → l ≠ [] → (extractLoop ind first l).1 ≠ []) := by
  intro l
  induction l with
  | nil => intro first _; exact ⟨rfl, rfl, fun _ h => absurd rfl h⟩
  | cons s l ih =>
    intro first h
    unfold extractLoop
    have h0 := h
    simp only [fitO, Bool.and_eq_true] at h
    split
    · rename_i stay go _
      dsimp only
      refine ⟨?_, ?_, ?_⟩
      · split
        · rfl
        · simp only [fitO, (keep_setAfter (T := T) stay s).1, (keep_setAfter stay s).2, h.1, Bool.and_self]
      · simp only [fitO, fit, h.2, Bool.or_true, Bool.and_self]
      · intro hf _
        rw [hf]; simp
    · obtain ⟨a1, a2, _⟩ := ih false h.2
      dsimp only
      refine ⟨?_, a2, fun _ _ => by simp⟩
      simp only [fitO, h.1, a1, Bool.and_self]

theorem fit_extractBody (l : List Expr) (h : fitO T false l = true) :
    fitO T false (extractBody l).1 = true ∧ fitO T false (extractBody l).2 = true ∧ ((extractBody l).1.isEmpty = l.isEmpty) := by
  unfold extractBody
  split
  · exact ⟨rfl, rfl, rfl⟩
  · rename_i x l' 
    split
    · exact ⟨h, rfl, rfl⟩
    · rename_i a b hs
      obtain ⟨e1, e2⟩ := splitAt_append _ _ _ hs
      rw [e1, fitO_append, Bool.and_eq_true] at h
      obtain ⟨a1, a2, a3⟩ := fit_extractLoop x.startPos.lineRune b true h.2
      dsimp only
      refine ⟨by rw [fitO_append, h.1, a1]; rfl, a2, ?_⟩
      have := a3 rfl e2
      generalize (extractLoop x.startPos.lineRune true b).1 = y at this ⊢
      cases y with
      | nil => exact absurd rfl this
      | cons z y => cases a <;> rfl

theorem fit_extract : ∀ (f : Nat) (s : Expr), fit T false s = true → fit T false (extractTrailing f s).1 = true ∧ fitO T false (extractTrailing f s).2 = true := by
  intro f
  induction f with
  | zero => intro s h; exact ⟨h, rfl⟩
  | succ f ih =>
    intro s h
    unfold extractTrailing
    split
    · rename_i c sp n ps body cp fc fm t
      simp only [fit, Bool.and_eq_true] at h
      obtain ⟨a1, a2, _⟩ := fit_extractBody body h.2.1.2
      refine ⟨?_, a2⟩
      simp only [fit, Bool.and_eq_true]
      exact ⟨h.1, ⟨h.2.1.1, a1⟩, h.2.2⟩
    · rename_i c fp vs x body
      simp only [fit, Bool.and_eq_true] at h
      obtain ⟨a1, a2, _⟩ := fit_extractBody body h.2
      refine ⟨?_, a2⟩
      simp only [fit, Bool.and_eq_true]
      exact ⟨h.1, a1⟩
    · rename_i c ip co t ep fa
      simp only [fit, Bool.and_eq_true] at h
      split
      · obtain ⟨a1, a2, a3⟩ := fit_extractBody t h.1.1.2
        refine ⟨?_, a2⟩
        simp only [fit, Bool.and_eq_true, a3]
        exact ⟨⟨⟨h.1.1.1, a1⟩, h.1.2⟩, rfl⟩
      · rename_i c2 ip2 co2 t2 ep2 fa2
        have h2 := h.2
        simp only [fitO, Expr.isNil, Bool.false_or, Bool.and_true] at h2
        obtain ⟨a1, a2⟩ := ih _ h2
        refine ⟨?_, a2⟩
        simp only [fit, fitO, Bool.and_eq_true, Bool.or_eq_true]
        exact ⟨h.1, .inr a1, trivial⟩
      · obtain ⟨a1, a2, a3⟩ := fit_extractBody fa h.2
        refine ⟨?_, a2⟩
        simp only [fit, Bool.and_eq_true]
        exact ⟨h.1, a1⟩
    · exact ⟨h, rfl⟩

theorem fr14 (hp : ∀ s : Bytes, 10 ∉ s → T s = true) : QStep T 13 := q1 rfl fun t1 v1 v _ h1 h => by
  have h : (let (s, cbs) := extractTrailing (chainLength v1.expr) v1.expr
    some { v1 with exprs := s :: cbs, last := cbs.isEmpty || v1.last }) = some v := h
  obtain ⟨a1, a2⟩ := fit_extract (T := T) (chainLength v1.expr) v1.expr h1
  generalize extractTrailing (chainLength v1.expr) v1.expr = p at a1 a2 h
  cases h
  refine ⟨by simp, ?_⟩
  show fitO T false (p.1 :: p.2) = true
  simp only [fitO, a1, a2, Bool.or_true, Bool.and_self]

theorem fr17 (hp : ∀ s : Bytes, 10 ∉ s → T s = true) : QStep T 16 := q3 rfl fun t1 t2 t3 v1 v2 v3 v _ h1 h2 h3 h => by
  obtain ⟨c, sp, n, ps, b, cp, fc, fm, t, e, rfl⟩ := sem17 (h : sem 17 [v1, v2, v3] = some v)
  have h1 : fit T false v1.expr = true := h1
  have h3 : fit T false v3.expr = true := h3.1
  rw [e] at h1
  show fit T false (.defS c sp n ps b cp fc fm v3.expr) = true
  simp only [fit, Bool.and_eq_true, Bool.or_eq_true] at h1 ⊢
  exact ⟨h1.1, h1.2.1, .inr h3⟩

theorem fr18 (hp : ∀ s : Bytes, 10 ∉ s → T s = true) : QStep T 17 := q3 rfl fun t1 t2 t3 v1 v2 v3 v _ h1 h2 h3 h => by
  obtain ⟨c, sp, n, ps, b, cp, fc, fm, t, e, rfl⟩ := sem18 (h : sem 18 [v1, v2, v3] = some v)
  have h1 : fit T false v1.expr = true := h1
  have h3 : v3.exprs ≠ [] ∧ fitO T false v3.exprs = true := h3
  rw [e] at h1
  show fit T false (.defS c sp n ps v3.exprs v2.pos fc fm t) = true
  simp only [fit, Bool.and_eq_true, Bool.or_eq_true] at h1 ⊢
  exact ⟨h1.1, ⟨h1.2.1.1, h3.2⟩, h1.2.2⟩

theorem fit_setElse : ∀ (f : Nat) (p : Pos) (new : List Expr) (e e' : Expr), fitO T false new = true → fit T false e = true → setElse f p new e = some e' → fit T false e' = true := by
  intro f
  induction f with
  | zero => intro p new e e' _ _ h; cases h
  | succ f ih =>
    intro p new e e' hn he h
    unfold setElse at h
    split at h
    · cases h
    · rename_i f' c ip co t ep fa hf
      simp only [fit, Bool.and_eq_true] at he
      split at h
      · rename_i x
        rw [Option.map_eq_some_iff] at h
        obtain ⟨x', hx, rfl⟩ := h
        cases hf
        have h2 := he.2
        simp only [fitO, Bool.and_true, Bool.or_eq_true] at h2
        simp only [fit, fitO, Bool.and_eq_true, Bool.or_eq_true]
        refine ⟨he.1, .inr ?_, trivial⟩
        rcases h2 with h2 | h2
        · cases x with
          | nil => cases f <;> cases hx
          | _ => cases h2
        · exact ih _ _ _ _ hn h2 hx
      · cases h
        simp only [fit, Bool.and_eq_true]
        exact ⟨he.1, hn⟩
    · cases h

theorem fr22 (hp : ∀ s : Bytes, 10 ∉ s → T s = true) : QStep T 21 := q5 rfl fun t1 t2 t3 t4 t5 v1 v2 v3 v4 v5 v _ h1 h2 h3 h4 h5 h => by
  have h : (setElse (chainLength v1.expr) v2.pos [.ifS {} v2.pos v3.expr v5.exprs {} []] v1.expr).map (fun e => { v1 with expr := e, last := v5.last }) = some v := h
  rw [Option.map_eq_some_iff] at h
  obtain ⟨e, he, rfl⟩ := h
  have h3 : fit T false v3.expr = true := h3
  have h5 : v5.exprs ≠ [] ∧ fitO T false v5.exprs = true := h5
  refine fit_setElse _ _ _ _ _ ?_ h1 he
  simp [fitO, fit, h3, h5]

theorem fr24 (hp : ∀ s : Bytes, 10 ∉ s → T s = true) : QStep T 23 := q4 rfl fun t1 t2 t3 t4 v1 v2 v3 v4 v _ h1 h2 h3 h4 h => by
  have h : (setElse (chainLength v1.expr) v2.pos v4.exprs v1.expr).map (fun e => { v1 with expr := e, last := v4.last }) = some v := h
  rw [Option.map_eq_some_iff] at h
  obtain ⟨e, he, rfl⟩ := h
  exact fit_setElse _ _ _ _ _ h4.2 h1 he

theorem fitLoad_pairs : ∀ l : List (IdentN × IdentN), l.all (fitPair T) = true → fitLoad T (l.map (·.1)) (l.map (·.2)) = true := by
  intro l
  induction l with
  | nil => intro _; rfl
  | cons p l ih =>
    intro h
    rw [List.all_cons, Bool.and_eq_true] at h
    show (fitPair T p && fitLoad T _ _) = true
    rw [h.1, ih h.2]; rfl

theorem fr44 (hp : ∀ s : Bytes, 10 ∉ s → T s = true) : QStep T 43 := q8 rfl fun t1 t2 t3 t4 t5 t6 t7 t8 v1 v2 v3 v4 v5 v6 v7 v8 v _ h1 h2 h3 h4 h5 h6 h7 h8 h => by
  cases h
  obtain ⟨n, hn, h4, _⟩ := h4
  refine ⟨?_, rfl⟩
  show (fitString T (asString v4.expr) && fitLoad T (v6.loadargs.map (·.1)) (v6.loadargs.map (·.2))) = true
  rw [hn, fitLoad_pairs _ h6, Bool.and_true]
  exact h4

theorem fr54 (hp : ∀ s : Bytes, 10 ∉ s → T s = true) : QStep T 53 := q3 rfl fun t1 t2 t3 v1 v2 v3 v _ h1 h2 h3 h => by
  have h2 : fitL T false v2.exprs = true := h2
  rw [show (53 + 1) = 54 from rfl, sem54] at h
  cases h
  show fit T false (parenOrTuple v1.pos v2 v3.pos) = true ∧ solid (parenOrTuple v1.pos v2 v3.pos) = true
  unfold parenOrTuple
  split
  · rename_i hc
    cases hl : v2.exprs with
    | nil => rw [hl] at hc; exact absurd hc.1 (by simp)
    | cons x l =>
      rw [hl] at h2
      simp only [fitL, Bool.and_eq_true] at h2
      simp [fit, solid, h2.1]
  · simp [fit, solid, fitO_of _ h2]

theorem fr116 (hp : ∀ s : Bytes, 10 ∉ s → T s = true) : QStep T 115 := q3 rfl fun t1 t2 t3 v1 v2 v3 v _ h1 h2 h3 h => by
  have e2 := QTok.text h2 hp (by decide) (by decide) (by decide)
  obtain ⟨h1, _⟩ := h1
  obtain ⟨h3, h3'⟩ := h3
  rw [show (115 + 1) = 116 from rfl, sem116] at h
  cases h
  show fit T false (mkIs v1.expr v2.pos v2.tok v3.expr) = true ∧ solid (mkIs v1.expr v2.pos v2.tok v3.expr) = true
  unfold mkIs
  split
  · rename_i c o uop z hz
    split
    · refine ⟨?_, solid_mkBinary _ _ _ _⟩
      rw [hz] at h3 h3'
      have h4 : z.isNil = false := by simpa [solid] using h3'
      simp only [fit, Bool.and_eq_true, h4, Bool.false_or] at h3
      rw [fit_mkBinary, h1, hp b!"is not" (by decide), h3.2]; rfl
    · refine ⟨?_, solid_mkBinary _ _ _ _⟩
      rw [fit_mkBinary, h1, e2, ← hz, h3]; rfl
  · refine ⟨?_, solid_mkBinary _ _ _ _⟩
    rw [fit_mkBinary, h1, e2, h3]; rfl

theorem fr40 (hp : ∀ s : Bytes, 10 ∉ s → T s = true) : QStep T 39 := q1 rfl fun t1 v1 v _ h1 h => by
  cases h
  obtain ⟨n, g, k⟩ := h1
  show fit T false v1.expr = true ∧ solid v1.expr = true
  rw [g]; exact ⟨k, rfl⟩

theorem fr42 (hp : ∀ s : Bytes, 10 ∉ s → T s = true) : QStep T 41 := q1 rfl fun t1 v1 v _ h1 h => by
  cases h
  obtain ⟨n, g, k, _⟩ := h1
  show fit T false v1.expr = true ∧ solid v1.expr = true
  rw [g]; exact ⟨k, rfl⟩

theorem fit_un {v1 v2 : Val} (h1 : T v1.tok = true) (h2 : fit T false v2.expr = true) :
    fit T false (mkUnary v1.pos v1.tok v2.expr) = true ∧ solid (mkUnary v1.pos v1.tok v2.expr) = true := by
  refine ⟨?_, ?_⟩
  · show (T v1.tok && (v2.expr.isNil || fit T false v2.expr)) = true
    rw [h1, h2, Bool.or_true]; rfl
  · show (!v2.expr.isNil) = true
    rw [fit_notNil h2]; rfl

theorem fr91 (hp : ∀ s : Bytes, 10 ∉ s → T s = true) : QStep T 90 := q2 rfl fun t1 t2 v1 v2 v _ h1 h2 h => by
  cases h
  exact fit_un (QTok.text h1 hp (by decide) (by decide) (by decide)) h2.1

theorem fr92 (hp : ∀ s : Bytes, 10 ∉ s → T s = true) : QStep T 91 := q2 rfl fun t1 t2 v1 v2 v _ h1 h2 h => by
  cases h
  exact fit_un (QTok.text h1 hp (by decide) (by decide) (by decide)) h2.1

theorem fr93 (hp : ∀ s : Bytes, 10 ∉ s → T s = true) : QStep T 92 := q2 rfl fun t1 t2 v1 v2 v _ h1 h2 h => by
  cases h
  exact fit_un (QTok.text h1 hp (by decide) (by decide) (by decide)) h2.1

theorem fr94 (hp : ∀ s : Bytes, 10 ∉ s → T s = true) : QStep T 93 := q2 rfl fun t1 t2 v1 v2 v _ h1 h2 h => by
  cases h
  exact fit_un (QTok.text h1 hp (by decide) (by decide) (by decide)) h2.1

theorem fit_steps (hp : ∀ s : Bytes, 10 ∉ s → T s = true) : ∀ r, r < 148 → QStep T r
  | 0, _ => fr1 hp
  | 1, _ => fr2 hp
  | 2, _ => fr3 hp
  | 3, _ => fr4 hp
  | 4, _ => fr5 hp
  | 5, _ => fr6 hp
  | 6, _ => fr7 hp
  | 7, _ => fr8 hp
  | 8, _ => fr9 hp
  | 9, _ => fr10 hp
  | 10, _ => fr11 hp
  | 11, _ => fr12 hp
  | 12, _ => fr13 hp
  | 13, _ => fr14 hp
  | 14, _ => fr15 hp
  | 15, _ => fr16 hp
  | 16, _ => fr17 hp
  | 17, _ => fr18 hp
  | 18, _ => fr19 hp
  | 19, _ => fr20 hp
  | 20, _ => fr21 hp
  | 21, _ => fr22 hp
  | 22, _ => fr23 hp
  | 23, _ => fr24 hp
  | 24, _ => fr25 hp
  | 25, _ => fr26 hp
  | 26, _ => fr27 hp
  | 27, _ => fr28 hp
  | 28, _ => fr29 hp
  | 29, _ => fr30 hp
  | 30, _ => fr31 hp
  | 31, _ => fr32 hp
  | 32, _ => fr33 hp
  | 33, _ => fr34 hp
  | 34, _ => fr35 hp
  | 35, _ => fr36 hp
  | 36, _ => fr37 hp
  | 37, _ => fr38 hp
  | 38, _ => fr39 hp
  | 39, _ => fr40 hp
  | 40, _ => fr41 hp
  | 41, _ => fr42 hp
  | 42, _ => fr43 hp
  | 43, _ => fr44 hp
  | 44, _ => fr45 hp
  | 45, _ => fr46 hp
  | 46, _ => fr47 hp
  | 47, _ => fr48 hp
  | 48, _ => fr49 hp
  | 49, _ => fr50 hp
  | 50, _ => fr51 hp
  | 51, _ => fr52 hp
  | 52, _ => fr53 hp
  | 53, _ => fr54 hp
  | 54, _ => fr55 hp
  | 55, _ => fr56 hp
  | 56, _ => fr57 hp
  | 57, _ => fr58 hp
  | 58, _ => fr59 hp
  | 59, _ => fr60 hp
  | 60, _ => fr61 hp
  | 61, _ => fr62 hp
  | 62, _ => fr63 hp
  | 63, _ => fr64 hp
  | 64, _ => fr65 hp
  | 65, _ => fr66 hp
  | 66, _ => fr67 hp
  | 67, _ => fr68 hp
  | 68, _ => fr69 hp
  | 69, _ => fr70 hp
  | 70, _ => fr71 hp
  | 71, _ => fr72 hp
  | 72, _ => fr73 hp
  | 73, _ => fr74 hp
  | 74, _ => fr75 hp
  | 75, _ => fr76 hp
  | 76, _ => fr77 hp
  | 77, _ => fr78 hp
  | 78, _ => fr79 hp
  | 79, _ => fr80 hp
  | 80, _ => fr81 hp
  | 81, _ => fr82 hp
  | 82, _ => fr83 hp
  | 83, _ => fr84 hp
  | 84, _ => fr85 hp
  | 85, _ => fr86 hp
  | 86, _ => fr87 hp
  | 87, _ => fr88 hp
  | 88, _ => fr89 hp
  | 89, _ => fr90 hp
  | 90, _ => fr91 hp
  | 91, _ => fr92 hp
  | 92, _ => fr93 hp
  | 93, _ => fr94 hp
  | 94, _ => fr95 hp
  | 95, _ => fr96 hp
  | 96, _ => fr97 hp
  | 97, _ => fr98 hp
  | 98, _ => fr99 hp
  | 99, _ => fr100 hp
  | 100, _ => fr101 hp
  | 101, _ => fr102 hp
  | 102, _ => fr103 hp
  | 103, _ => fr104 hp
  | 104, _ => fr105 hp
  | 105, _ => fr106 hp
  | 106, _ => fr107 hp
  | 107, _ => fr108 hp
  | 108, _ => fr109 hp
  | 109, _ => fr110 hp
  | 110, _ => fr111 hp
  | 111, _ => fr112 hp
  | 112, _ => fr113 hp
  | 113, _ => fr114 hp
  | 114, _ => fr115 hp
  | 115, _ => fr116 hp
  | 116, _ => fr117 hp
  | 117, _ => fr118 hp
  | 118, _ => fr119 hp
  | 119, _ => fr120 hp
  | 120, _ => fr121 hp
  | 121, _ => fr122 hp
  | 122, _ => fr123 hp
  | 123, _ => fr124 hp
  | 124, _ => fr125 hp
  | 125, _ => fr126 hp
  | 126, _ => fr127 hp
  | 127, _ => fr128 hp
  | 128, _ => fr129 hp
  | 129, _ => fr130 hp
  | 130, _ => fr131 hp
  | 131, _ => fr132 hp
  | 132, _ => fr133 hp
  | 133, _ => fr134 hp
  | 134, _ => fr135 hp
  | 135, _ => fr136 hp
  | 136, _ => fr137 hp
  | 137, _ => fr138 hp
  | 138, _ => fr139 hp
  | 139, _ => fr140 hp
  | 140, _ => fr141 hp
  | 141, _ => fr142 hp
  | 142, _ => fr143 hp
  | 143, _ => fr144 hp
  | 144, _ => fr145 hp
  | 145, _ => fr146 hp
  | 146, _ => fr147 hp
  | 147, _ => fr148 hp
  | n + 148, h => absurd h (by omega)

end
end Verif.Printed
