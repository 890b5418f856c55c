import Verif.Proofs.FitStep
import Verif.Proofs.SameComm
import Verif.Props.Sound
import Verif.Props.Comments
/-
A file that parses has nothing missing.
-/
namespace Verif.Printed
open Verif Verif.Syntax Verif.Lexer Verif.Print Verif.Parser Verif.Grammar Verif.Props.Grammar Verif.Comm Verif.Round

variable {T : Bytes → Bool}

theorem fitLoad_names : ∀ fs ts fs' ts' : List IdentN, fs'.map (·.name) = fs.map (·.name) → ts'.map (·.name) = ts.map (·.name) → fitLoad T fs' ts' = fitLoad T fs ts := by
  intro fs
  induction fs with
  | nil => intro ts fs' ts' h _; cases fs' with | nil => rfl | cons => cases h
  | cons f fs ih =>
    intro ts fs' ts' h h'
    cases fs' with
    | nil => cases h
    | cons f' fs' =>
      cases ts with
      | nil => cases ts' with | nil => rfl | cons => cases h'
      | cons t ts =>
        cases ts' with
        | nil => cases h'
        | cons t' ts' =>
          simp only [List.map_cons, List.cons.injEq] at h h'
          unfold fitLoad
          rw [ih ts fs' ts' h.2 h'.2, h.1, h'.1]

theorem fitLoad_suf (fs ts : List IdentN) (l : List Comment) : fitLoad T (sufLoad fs ts l).1 (sufLoad fs ts l).2.1 = fitLoad T fs ts :=
  fitLoad_names _ _ _ _ (sufLoad_names fs ts l).1 (sufLoad_names fs ts l).2
theorem fitLoad_lin (fs ts : List IdentN) (l : List Comment) : fitLoad T (linLoad fs ts l).1 (linLoad fs ts l).2.1 = fitLoad T fs ts :=
  fitLoad_names _ _ _ _ (linLoad_names fs ts l).1 (linLoad_names fs ts l).2

theorem suf_isNil (x : Expr) (l : List Comment) : (sufE x l).1.isNil = x.isNil := by
  cases x <;> simp only [sufE] <;> rfl
theorem lin_isNil (x : Expr) (l : List Comment) : (linE x l).1.isNil = x.isNil := by
  cases x <;> simp only [linE] <;> rfl
theorem sufL_isEmpty (x : List Expr) (l : List Comment) : (sufL x l).1.isEmpty = x.isEmpty := by
  cases x <;> simp only [sufL] <;> rfl
theorem linL_isEmpty (x : List Expr) (l : List Comment) : (linL x l).1.isEmpty = x.isEmpty := by
  cases x <;> simp only [linL] <;> rfl

theorem fit_suf (x : Expr) : ∀ l, fit T false (sufE x l).1 = fit T false x := by
  refine Expr.rec (motive_1 := fun x => ∀ l, fit T false (sufE x l).1 = fit T false x)
    (motive_2 := fun x => ∀ l, fitL T false (sufL x l).1 = fitL T false x ∧ fitO T false (sufL x l).1 = fitO T false x ∧ fitH T false (sufL x l).1 = fitH T false x)
    ?_ ?_ ?_ ?_ ?_ ?_ ?_ ?_ ?_ ?_ ?_ ?_ ?_ ?_ ?_ ?_ ?_ ?_ ?_ ?_ ?_ ?_ ?_ ?_ ?_ ?_ ?_ ?_ ?_ ?_ ?_ ?_ ?_ x
  all_goals intros
  all_goals simp_all [sufE, sufL, fit, fitL, fitO, fitH, fitLoad_suf, suf_isNil, sufL_isEmpty]
  all_goals first | rfl | skip

theorem fit_lin (x : Expr) : ∀ l, fit T false (linE x l).1 = fit T false x := by
  refine Expr.rec (motive_1 := fun x => ∀ l, fit T false (linE x l).1 = fit T false x)
    (motive_2 := fun x => ∀ l, fitL T false (linL x l).1 = fitL T false x ∧ fitO T false (linL x l).1 = fitO T false x ∧ fitH T false (linL x l).1 = fitH T false x)
    ?_ ?_ ?_ ?_ ?_ ?_ ?_ ?_ ?_ ?_ ?_ ?_ ?_ ?_ ?_ ?_ ?_ ?_ ?_ ?_ ?_ ?_ ?_ ?_ ?_ ?_ ?_ ?_ ?_ ?_ ?_ ?_ ?_ x
  all_goals intros
  all_goals simp_all [linE, linL, fit, fitL, fitO, fitH, fitLoad_lin, lin_isNil, linL_isEmpty]
  all_goals first | rfl | skip

theorem fitO_suf : ∀ (x : List Expr) l, fitO T false (sufL x l).1 = fitO T false x := by
  intro x
  induction x with
  | nil => intro l; simp [sufL]
  | cons x r ih => intro l; simp only [sufL, fitO, ih, fit_suf, suf_isNil]

theorem fitO_lin : ∀ (x : List Expr) l, fitO T false (linL x l).1 = fitO T false x := by
  intro x
  induction x with
  | nil => intro l; simp [linL]
  | cons x r ih => intro l; simp only [linL, fitO, ih, fit_lin, lin_isNil]

theorem fit_assign (x : List Expr) (a b : List Comment) : fitO T false (assign x a b).2 = fitO T false x := by
  unfold assign
  simp only [fitO_lin, fitO_suf]

/-- **A file that parses and does not end with a backslash has nothing missing.** -/
theorem parsed_fit {fuel : Nat} {ft : FileType} {data : Bytes} {f : File} (hp : ∀ s : Bytes, 10 ∉ s → T s = true) (h : parseFile fuel ft data = some f)
    (hb : data.getLast? ≠ some 92)
    (hs : ∀ ts st, tokens data = .ok ts st → ∀ t ∈ ts, t.kind = K.string →
      fitString T { value := t.str, triple := t.triple, token := t.tok } = true ∧ fitString T { value := t.str } = true) : fitO T false f.stmts = true := by
  unfold parseFile at h
  cases ht : tokens data with
  | ok ts st =>
    rw [ht] at h
    dsimp only at h
    cases hr : run fuel (initCfg ts) with
    | none => rw [hr] at h; cases h
    | some l =>
      rw [hr] at h
      cases h
      obtain ⟨v, hv, rfl⟩ := (C62_iff data ts st l ht).1 ⟨fuel, hr⟩
      dsimp only
      rw [fit_assign]
      have hT : FToks T ts := ⟨tokens_good ht, hs ts st ht, fun a t u b e k => tokens_block ht hb a t u b e k⟩
      exact fit_induct (fit_steps hp) (C61_refines hv) hT
  | _ => rw [ht] at h; cases h

end Verif.Printed
