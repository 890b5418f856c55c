import Verif.Proofs.IxAdds
/-
Where expressions with comments fit into the grammar: like Proofs/Gen.lean, for any comments.
-/
namespace Verif.RoundI
open Verif Verif.Syntax Verif.Lexer Verif.Print Verif.Grammar Verif.Parser Verif.Round

/-- the root of an expression -/
inductive Sh : Expr → Prop
  | ident (n) : Sh (.ident n)
  | int (c p t) : IntText t → Sh (.literal c p t)
  | float (c p t) : Float t → Sh (.literal c p t)
  | string (n) : Sh (.string n)
  | dot (c x dp np name) : Sh (.dot c x dp np name)
  | call (c x ls l e fc fm) : Sh (.call c x ls l e fc fm)
  | index (c x p y e) : Sh (.index c x p y e)
  | slice (c x p fr c1 to c2 st e) : Sh (.slice c x p fr c1 to c2 st e)
  | list (c s l e fm) : Sh (.list c s l e fm)
  | set (c s l e fm) : Sh (.set c s l e fm)
  | tuple (c s l e fc fm) : Sh (.tuple c false s l e fc fm)
  | dict (c s l e fm) : Sh (.dict c s l e fm)
  | paren (c s x e fm) : Sh (.paren c s x e fm)
  | compr (c cu p b cl fm e) : Sh (.compr c cu p b cl fm e)
  | unary (c p op x) : Sh (.unary c p op x)
  | binary (c x p op lb y) : op ∈ binOps → Sh (.binary c x p op lb y)
  | is (c x p lb y) : Sh (.binary c x p b!"is" lb y)
  | isNot (c x p lb y) : Sh (.binary c x p b!"is not" lb y)
  | lambda (c p ps b) : Sh (.lambda c p ps b)
  | cond (c t i te el e) : Sh (.cond c t i te el e)
  | load (c p m fs ts r fc) : Sh (.load c p m fs ts r fc)

theorem Ok.sh {e : Expr} (h : Ok e) : Sh e := by
  cases h with
  | int _ _ _ _ h => exact .int _ _ _ h
  | float _ _ _ _ h => exact .float _ _ _ h
  | binary _ _ _ _ _ _ _ h => exact .binary _ _ _ _ _ _ h
  | is => exact .is ..
  | isNot => exact .isNot ..
  | ident => exact .ident ..
  | string => exact .string ..
  | dot => exact .dot ..
  | call => exact .call ..
  | index => exact .index ..
  | slice => exact .slice ..
  | list => exact .list ..
  | set => exact .set ..
  | tuple => exact .tuple ..
  | dict => exact .dict ..
  | paren => exact .paren ..
  | listCompr => exact .compr ..
  | dictCompr => exact .compr ..
  | unary => exact .unary ..
  | lambda => exact .lambda ..
  | cond => exact .cond ..
  | load => exact .load ..

theorem OkN.ok {e : Expr} (h : OkN e) : Ok e := by cases h; assumption
theorem OkN.nb {e : Expr} (h : OkN e) : NB e := by cases h; assumption
theorem OkN.sh {e : Expr} (h : OkN e) : Sh e := h.ok.sh
theorem OkExprN.ok {e : Expr} (h : OkExprN e) : OkExpr e := by cases h; assumption
theorem OkExprN.nb {e : Expr} (h : OkExprN e) : NB e := by cases h; assumption
theorem OkVarsN.ok {e : Expr} (h : OkVarsN e) : OkVars e := by cases h; assumption
theorem OkVarsN.nb {e : Expr} (h : OkVarsN e) : NB e := by cases h; assumption

theorem CN.co {c : Comments} (h : CN c) : CO c := ⟨by rw [h.1]; exact comsOK_nil, h.2⟩

/-- which operators an expression can have -/
theorem ok_binary {c x p op lb y} (h : Sh (.binary c x p op lb y)) : op ∈ binOps ∨ op ∈ isOps := by
  cases h with
  | binary _ _ _ _ _ _ h => exact .inl h
  | is => exact .inr (by decide)
  | isNot => exact .inr (by decide)

/-- base of a suffix or operand of a unary operator -/
theorem fits14 {as e R} (hc : isCond e = false) (he : Sh e) (d : Gen as (.n (fits e 14)) R) : Gen as (.n .primaryExpr) R := by
  refine fits_prim ?_ d
  cases he <;> first | (exact .inl rfl) | skip
  case int => exact fits_literal _ _ _ _
  case float => exact fits_literal _ _ _ _
  case binary p op lb y h =>
    obtain ⟨h1, h2⟩ := opPrec_bin h
    left; unfold fits; simp only; rw [if_pos (by omega)]
  case cond => cases hc

theorem fits14' {as e R} (hc : isCond e = false) (hi : isInt e = false) (he : Sh e) (d : Gen as (.n (fits e 14)) R) : Gen as (.n .primary) R := by
  have : fits e 14 = .primary := by
    cases he <;> first | rfl | skip
    case int t h => unfold fits; unfold isInt at hi; simp only [Bool.not_eq_false'] at hi; simp only [hi, if_true]
    case float t h => unfold fits; unfold isInt at hi; simp only [Bool.not_eq_false'] at hi; simp only [hi, if_true]
    case binary p op lb y h =>
      obtain ⟨h1, h2⟩ := opPrec_bin h
      unfold fits; simp only; rw [if_pos (by omega)]
    case cond => cases hc
  rw [this] at d; exact d

/-- an operand of a binary operator -/
theorem fits_op {as e R} {p : Nat} (h4 : 4 ≤ p) (h13 : p ≤ 13) (hc : isCond e = false) (he : Sh e) (d : Gen as (.n (fits e p)) R) : Gen as (.n (.test p false)) R := by
  by_cases hp : fits e p = .primary ∨ fits e p = .primaryInt
  · exact test_up (by omega) h13 (by omega) (fits_prim13 hp d)
  · cases he <;> first | (exact absurd (.inl rfl) hp) | skip
    case int => exact absurd (fits_literal _ _ _ _) hp
    case float => exact absurd (fits_literal _ _ _ _) hp
    case unary =>
      unfold fits at d; simp only at d; rw [if_neg (by omega)] at d
      exact test_up (by omega) h13 (by omega) d
    case binary q op lb y h =>
      obtain ⟨h1, h2⟩ := opPrec_bin h
      by_cases hl : opPrec op < p
      · exfalso; apply hp; left; unfold fits; simp only; rw [if_pos hl]
      · unfold fits at d; simp only at d; rw [if_neg hl, if_neg (by omega)] at d
        exact test_up (by omega) (by omega) (by omega) d
    case is => exfalso; apply hp; left; unfold fits; simp only; rw [if_pos (by rw [opPrec_is (by decide)]; omega)]
    case isNot => exfalso; apply hp; left; unfold fits; simp only; rw [if_pos (by rw [opPrec_is (by decide)]; omega)]
    case lambda => exfalso; apply hp; left; unfold fits; simp only; rw [if_pos (by omega)]
    case cond => cases hc

/-- a part of a conditional -/
theorem fits3 {as e R} (hc : isCond e = false) (he : Sh e) (d : Gen as (.n (fits e 3)) R) : Gen as (.n (.test 3 false)) R := by
  by_cases hp : fits e 3 = .primary ∨ fits e 3 = .primaryInt
  · exact test_up (by omega) (by omega) (by omega) (fits_prim13 hp d)
  · cases he <;> first | (exact absurd (.inl rfl) hp) | skip
    case int => exact absurd (fits_literal _ _ _ _) hp
    case float => exact absurd (fits_literal _ _ _ _) hp
    case unary =>
      exact test_up (by omega) (show 3 ≤ 13 by omega) (by omega) d
    case binary q op lb y h =>
      obtain ⟨h1, h2⟩ := opPrec_bin h
      unfold fits at d; simp only at d; rw [if_neg (by omega), if_neg (by omega)] at d
      exact test_up (by omega) (by omega) (by omega) d
    case cond => cases hc

theorem fits3c {as e R} (he : Sh e) (d : Gen as (.n (fits e 3)) R) : Gen as (.n (.test 2 false)) R := by
  cases hc : isCond e with
  | false => exact test_up1 (k := 2) (by omega) (by omega) (fits3 hc he d)
  | true =>
    cases e <;> first | (cases hc) | skip
    exact d

/-- right operand of `is` -/
theorem fits1 {as e R} (hc : isCond e = false) (he : Sh e) (d : Gen as (.n (fits e 1)) R) : Gen as (.n (.test 4 (isLambda e))) R := by
  by_cases hp : fits e 1 = .primary ∨ fits e 1 = .primaryInt
  · have hl : isLambda e = false := by
      cases e <;> first | rfl | skip
      simp [fits] at hp
    rw [hl]
    exact test_up (by omega) (by omega) (by omega) (fits_prim13 hp d)
  · cases he <;> first | (exact absurd (.inl rfl) hp) | skip
    case int => exact absurd (fits_literal _ _ _ _) hp
    case float => exact absurd (fits_literal _ _ _ _) hp
    case unary => exact test_up (by omega) (show 4 ≤ 13 by omega) (by omega) d
    case binary q op lb y h =>
      obtain ⟨h1, h2⟩ := opPrec_bin h
      unfold fits at d; simp only at d; rw [if_neg (by omega), if_neg (by omega)] at d
      exact test_up (by omega) (by omega) (by omega) d
    case lambda => exact test_up (by omega) (show 4 ≤ 13 by omega) (by omega) d
    case cond => cases hc

/-- right operand of `is not` -/
theorem fits1' {as e R} (hc : isCond e = false) (hb : isBin e = false) (he : Sh e) (d : Gen as (.n (fits e 1)) R) : Gen as (.n (.test 13 (isLambda e))) R := by
  by_cases hp : fits e 1 = .primary ∨ fits e 1 = .primaryInt
  · have hl : isLambda e = false := by
      cases e <;> first | rfl | skip
      simp [fits] at hp
    rw [hl]
    exact fits_prim13 hp d
  · cases he <;> first | (exact absurd (.inl rfl) hp) | skip
    case int => exact absurd (fits_literal _ _ _ _) hp
    case float => exact absurd (fits_literal _ _ _ _) hp
    case unary => exact d
    case binary q op lb y h =>
      simp [isBin] at hb
      exact absurd h hb
    case lambda => exact d
    case cond => cases hc

/-- an expression that is not a conditional, at the lowest precedence -/
theorem fits0 {as e R} (hc : isCond e = false) (he : Sh e) (d : Gen as (.n (fits e 0)) R) : Gen as (.n (.test 3 (openEnd e))) R := by
  by_cases hp : fits e 0 = .primary ∨ fits e 0 = .primaryInt
  · have hl : openEnd e = false := by
      cases e <;> first | rfl | skip
      case binary =>
        rcases ok_binary he with h | h
        · simp only [openEnd, bin_not_is h, Bool.false_and]
        · simp [fits, opPrec_is h] at hp
      simp [fits] at hp
    rw [hl]
    exact test_up (by omega) (by omega) (by omega) (fits_prim13 hp d)
  · cases he <;> first | (exact absurd (.inl rfl) hp) | skip
    case int => exact absurd (fits_literal _ _ _ _) hp
    case float => exact absurd (fits_literal _ _ _ _) hp
    case unary => exact test_up (by omega) (show 3 ≤ 13 by omega) (by omega) d
    case binary q op lb y h =>
      obtain ⟨h1, h2⟩ := opPrec_bin h
      unfold fits at d; simp only at d; rw [if_neg (by omega), if_neg (by omega)] at d
      have hl := bin_not_is h
      simp only [openEnd, hl, Bool.false_and]
      exact test_up (by omega) (by omega) (by omega) d
    case is => exact d
    case isNot => exact d
    case lambda => exact test_up (by omega) (show 3 ≤ 13 by omega) (by omega) d
    case cond => cases hc

theorem fits0_3 {as e R} (hc : isCond e = false) (he : Sh e) (d : Gen as (.n (fits e 0)) R) : Gen as (.n (.any 3)) R := test_any3 (fits0 hc he d)

/-- any expression at the lowest precedences -/
theorem fits_any {as e R} {p : Nat} (hp : p ≤ 2) (he : Sh e) (d : Gen as (.n (fits e p)) R) : Gen as (.n (.any 2)) R := by
  have key : ∀ q o, 2 ≤ q → q ≤ 13 → Gen as (.n (.test q o)) R → Gen as (.n (.any 2)) R := fun q o h1 h2 h => test_any2 (test_up (by omega) h1 h2 h)
  by_cases hpr : fits e p = .primary ∨ fits e p = .primaryInt
  · exact key 13 false (by omega) (by omega) (fits_prim13 hpr d)
  · cases he <;> first | (exact absurd (.inl rfl) hpr) | skip
    case int => exact absurd (fits_literal _ _ _ _) hpr
    case float => exact absurd (fits_literal _ _ _ _) hpr
    case unary => unfold fits at d; simp only at d; rw [if_neg (by omega)] at d; exact key _ _ (by omega) (by omega) d
    case binary q op lb y h =>
      obtain ⟨h1, h2⟩ := opPrec_bin h
      unfold fits at d; simp only at d; rw [if_neg (by omega), if_neg (by omega)] at d
      exact key _ _ (by omega) (by omega) d
    case is =>
      unfold fits at d; simp only at d
      by_cases h0 : opPrec b!"is" < p
      · exfalso; apply hpr; left; unfold fits; simp only; rw [if_pos h0]
      · rw [if_neg h0, if_pos (by decide)] at d; exact key _ _ (by omega) (by omega) d
    case isNot =>
      unfold fits at d; simp only at d
      by_cases h0 : opPrec b!"is not" < p
      · exfalso; apply hpr; left; unfold fits; simp only; rw [if_pos h0]
      · rw [if_neg h0, if_pos (by decide)] at d; exact key _ _ (by omega) (by omega) d
    case lambda => unfold fits at d; simp only at d; rw [if_neg (by omega)] at d; exact key _ _ (by omega) (by omega) d
    case cond => exact key _ _ (by omega) (by omega) d

/-- an operand after a star -/
theorem fits14_any {as e R} (he : Sh e) (d : Gen as (.n (fits e 14)) R) : Gen as (.n (.any 2)) R := by
  cases hc : isCond e with
  | false => exact test_any2 (test_up (by omega) (show 2 ≤ 13 by omega) (by omega) (primExpr_up (fits14 hc he d)))
  | true =>
    cases e <;> first | (cases hc) | skip
    exact test_any2 (o := false) d


theorem sh_bare {e : Expr} (h : Sh e) : isBare e = false := by cases h <;> rfl

end Verif.RoundI
