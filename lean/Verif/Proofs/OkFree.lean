import Verif.Proofs.Strip
import Verif.Props.RoundSpec
/-
The trees of `Ok` have no comments.
-/
namespace Verif.Round
open Verif Verif.Syntax Verif.Lexer Verif.Print Verif.Parser Verif.Comm Verif.Props.Comments

theorem comL_nil {l : List Expr} : comL l = [] ↔ ∀ a ∈ l, comE a = [] := by
  induction l with
  | nil => simp [comL]
  | cons x l ih => simp [comL, ih]

theorem comI_nil {l : List IdentN} : comI l = [] ↔ ∀ n ∈ l, n.comments = {} := by
  induction l with
  | nil => simp [comI]
  | cons x l ih => simp [comI, ih, comC_iff]

theorem com_opt {x : Expr} (h : x.isNil = false → comE x = []) : comE x = [] := by
  cases x <;> first | exact h rfl | rfl

theorem okFree {x : Expr} (h : Ok x) : comE x = [] := by
  refine Ok.rec (motive_1 := fun x _ => comE x = []) (motive_2 := fun x _ => comE x = []) (motive_3 := fun _ x _ => comE x = []) (motive_4 := fun x _ => comE x = [])
    (motive_5 := fun x _ => comE x = []) (motive_6 := fun x _ => comE x = []) (motive_7 := fun x _ => comE x = [])
    ?_ ?_ ?_ ?_ ?_ ?_ ?_ ?_ ?_ ?_ ?_ ?_ ?_ ?_ ?_ ?_ ?_ ?_ ?_ ?_ ?_ ?_ ?_ ?_ ?_ ?_ ?_ ?_ ?_ ?_ ?_ ?_ ?_ ?_ ?_ ?_ ?_ ?_ ?_ ?_ ?_ ?_ h
  case refine_8 =>
    intro x p fr c1 to c2 st e _ _ _ _ _ _ h1 h2 h3 h4
    simp only [comE, h1, com_opt h2, com_opt h3, com_opt h4]; rfl
  all_goals intros
  all_goals simp_all [comE, comL_nil, comI_nil, comC_iff]

theorem okParamFree {b : Bool} {x : Expr} (h : OkParam b x) : comE x = [] := by
  cases h <;> simp_all [comE, comC_iff, okFree]

theorem okVarsFree {x : Expr} (h : OkVars x) : comE x = [] := by
  cases h with
  | one _ h => exact okFree h
  | tuple _ _ _ _ _ _ _ he h _ =>
    simp only [comE, comL_nil.2 (fun a ha => okFree (h a ha)), comC_iff.2 he, comC_iff.2 rfl]; rfl

theorem okExprFree {x : Expr} (h : OkExpr x) : comE x = [] := by
  cases h with
  | one _ h => exact okFree h
  | tuple _ _ _ _ _ _ _ he h _ =>
    simp only [comE, comL_nil.2 (fun a ha => okFree (h a ha)), comC_iff.2 he, comC_iff.2 rfl]; rfl

theorem okStmtFree {x : Expr} (h : OkStmt x) (hb : isBlock x = false) : comE x = [] := by
  cases h with
  | expr _ h => exact okExprFree h
  | assign _ _ _ _ _ _ h1 h2 => simp only [comE, okExprFree h1, okExprFree h2]; rfl
  | aug _ _ _ _ _ _ h1 h2 => simp only [comE, okExprFree h1, okExprFree h2]; rfl
  | return_ _ _ h => simp only [comE, com_opt (fun hn => okExprFree (h hn))]; rfl
  | branch => rfl
  | _ => cases hb

end Verif.Round
