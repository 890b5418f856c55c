import Verif.Proofs.GenE
import Verif.Model.Comments
/-
Assigning comments changes nothing but comments.
-/
namespace Verif.Round
open Verif Verif.Syntax Verif.Comm

theorem sufLoad_names : ∀ (fs ts : List IdentN) (l : List Comment), (sufLoad fs ts l).1.map (·.name) = fs.map (·.name) ∧ (sufLoad fs ts l).2.1.map (·.name) = ts.map (·.name) := by
  intro fs
  induction fs with
  | nil => intro ts l; cases ts <;> exact ⟨rfl, rfl⟩
  | cons f fs ih =>
    intro ts l
    cases ts with
    | nil => exact ⟨rfl, rfl⟩
    | cons t ts =>
      obtain ⟨h1, h2⟩ := ih ts l
      unfold sufLoad
      dsimp only
      exact ⟨by rw [List.map_cons, h1]; rfl, by rw [List.map_cons]; exact congrArg (t.name :: ·) h2⟩

theorem linLoad_names : ∀ (fs ts : List IdentN) (l : List Comment), (linLoad fs ts l).1.map (·.name) = fs.map (·.name) ∧ (linLoad fs ts l).2.1.map (·.name) = ts.map (·.name) := by
  intro fs
  induction fs with
  | nil => intro ts l; cases ts <;> exact ⟨rfl, rfl⟩
  | cons f fs ih =>
    intro ts l
    cases ts with
    | nil => exact ⟨rfl, rfl⟩
    | cons t ts =>
      unfold linLoad
      dsimp only
      obtain ⟨h1, h2⟩ := ih ts (linIdent f (linIdent t l).2).2
      exact ⟨by rw [List.map_cons, h1]; rfl, by rw [List.map_cons]; exact congrArg (t.name :: ·) h2⟩

theorem same_suf_both :
    (∀ {e x : Expr}, Same e x → ∀ l, Same e (sufE x l).1) ∧ (∀ {e x : List Expr}, SameL e x → ∀ l, SameL e (sufL x l).1) := by
  constructor
  · intro e x h
    refine Same.rec (motive_1 := fun e x _ => ∀ l, Same e (sufE x l).1) (motive_2 := fun e x _ => ∀ l, SameL e (sufL x l).1)
      ?_ ?_ ?_ ?_ ?_ ?_ ?_ ?_ ?_ ?_ ?_ ?_ ?_ ?_ ?_ ?_ ?_ ?_ ?_ ?_ ?_ ?_ ?_ ?_ ?_ ?_ ?_ ?_ ?_ ?_ ?_ ?_ h
    all_goals intros
    all_goals (simp only [sufE, sufL])
    all_goals first
      | (apply Same.paren; solve_by_elim; done)
      | (constructor <;> solve_by_elim)
      | skip
    next h1 h2 h3 h4 _ => exact Same.load _ _ _ _ _ _ _ _ _ _ _ _ _ _ h1 h2 (h3.trans (sufLoad_names ..).1.symm) (h4.trans (sufLoad_names ..).2.symm)
  · intro e x h
    refine SameL.rec (motive_1 := fun e x _ => ∀ l, Same e (sufE x l).1) (motive_2 := fun e x _ => ∀ l, SameL e (sufL x l).1)
      ?_ ?_ ?_ ?_ ?_ ?_ ?_ ?_ ?_ ?_ ?_ ?_ ?_ ?_ ?_ ?_ ?_ ?_ ?_ ?_ ?_ ?_ ?_ ?_ ?_ ?_ ?_ ?_ ?_ ?_ ?_ ?_ h
    all_goals intros
    all_goals (simp only [sufE, sufL])
    all_goals first
      | (apply Same.paren; solve_by_elim; done)
      | (constructor <;> solve_by_elim)
      | skip
    next h1 h2 h3 h4 _ => exact Same.load _ _ _ _ _ _ _ _ _ _ _ _ _ _ h1 h2 (h3.trans (sufLoad_names ..).1.symm) (h4.trans (sufLoad_names ..).2.symm)

theorem same_lin_both :
    (∀ {e x : Expr}, Same e x → ∀ l, Same e (linE x l).1) ∧ (∀ {e x : List Expr}, SameL e x → ∀ l, SameL e (linL x l).1) := by
  constructor
  · intro e x h
    refine Same.rec (motive_1 := fun e x _ => ∀ l, Same e (linE x l).1) (motive_2 := fun e x _ => ∀ l, SameL e (linL x l).1)
      ?_ ?_ ?_ ?_ ?_ ?_ ?_ ?_ ?_ ?_ ?_ ?_ ?_ ?_ ?_ ?_ ?_ ?_ ?_ ?_ ?_ ?_ ?_ ?_ ?_ ?_ ?_ ?_ ?_ ?_ ?_ ?_ h
    all_goals intros
    all_goals (simp only [linE, linL])
    all_goals first
      | (apply Same.paren; solve_by_elim; done)
      | (constructor <;> solve_by_elim)
      | skip
    next h1 h2 h3 h4 _ => exact Same.load _ _ _ _ _ _ _ _ _ _ _ _ _ _ h1 h2 (h3.trans (linLoad_names ..).1.symm) (h4.trans (linLoad_names ..).2.symm)
  · intro e x h
    refine SameL.rec (motive_1 := fun e x _ => ∀ l, Same e (linE x l).1) (motive_2 := fun e x _ => ∀ l, SameL e (linL x l).1)
      ?_ ?_ ?_ ?_ ?_ ?_ ?_ ?_ ?_ ?_ ?_ ?_ ?_ ?_ ?_ ?_ ?_ ?_ ?_ ?_ ?_ ?_ ?_ ?_ ?_ ?_ ?_ ?_ ?_ ?_ ?_ ?_ h
    all_goals intros
    all_goals (simp only [linE, linL])
    all_goals first
      | (apply Same.paren; solve_by_elim; done)
      | (constructor <;> solve_by_elim)
      | skip
    next h1 h2 h3 h4 _ => exact Same.load _ _ _ _ _ _ _ _ _ _ _ _ _ _ h1 h2 (h3.trans (linLoad_names ..).1.symm) (h4.trans (linLoad_names ..).2.symm)

theorem same_suf {e x : Expr} (h : Same e x) (l) : Same e (sufE x l).1 := same_suf_both.1 h l
theorem sameL_suf {e x : List Expr} (h : SameL e x) (l) : SameL e (sufL x l).1 := same_suf_both.2 h l
theorem same_lin {e x : Expr} (h : Same e x) (l) : Same e (linE x l).1 := same_lin_both.1 h l
theorem sameL_lin {e x : List Expr} (h : SameL e x) (l) : SameL e (linL x l).1 := same_lin_both.2 h l

end Verif.Round
