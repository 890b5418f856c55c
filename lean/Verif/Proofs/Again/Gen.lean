import Verif.Proofs.Again.Re
/-
Derivations for token lists known up to columns (`Gen`): as `Verif.Round.Gen`, with the lines of the tokens.
-/
namespace Verif.Again
open Verif Verif.Syntax Verif.Lexer Verif.Print Verif.Parser Verif.Grammar Verif.Props.Grammar Verif.Round

/-- tokens whose line does not matter -/
def loose (k : Kind) : Bool := k == 44 || k == 58 || k == 61 || k == K.newline || k == K.indent || k == K.unindent

/-- the line of a token; commas, colons, equal signs and line ends may be anywhere -/
def mark (k : Kind) (ln : Nat) : Nat := if loose k then 0 else ln

/-- a token with its line -/
abbrev LTok := ATok × Nat

def absL (t : Tok) : LTok := (abs t, mark t.kind t.pos.line)

/-- a word, operator or punctuation mark on a line -/
def W (ln : Nat) (k : Kind) (t : Bytes) : LTok := (Round.W k t, mark k ln)
/-- a string literal on a line -/
def WS (ln : Nat) (t v : Bytes) (tr : Bool) : LTok := (⟨K.string, t, v, tr⟩, ln)

/-- every list of tokens that looks like `as` can be derived from `x`, with a value that satisfies `R` -/
def Gen (as : List LTok) (x : FSym) (R : Val → Prop) : Prop :=
  ∀ ts : List Tok, ts.map absL = as → (∀ t ∈ ts, PosOK t) → ∃ v, FDeriv x ts v ∧ R v

def GenL (as : List LTok) (xs : List FSym) (R : List Val → Prop) : Prop :=
  ∀ ts : List Tok, ts.map absL = as → (∀ t ∈ ts, PosOK t) → ∃ vs, FDerivL xs ts vs ∧ R vs

/-- the value of the token `a` -/
structure TV (a : LTok) (v : Val) : Prop where
  tok : v.tok = a.1.tok
  str : v.str = a.1.str
  triple : v.triple = a.1.triple
  line : v.pos.line ≠ 0
  byte : a.1.kind = 58 → v.pos.byte ≠ 0
  ln : mark a.1.kind v.pos.line = a.2
  exprs : v.exprs = []
  loadargs : v.loadargs = []
  last : v.last = false

theorem Gen.tok (a : LTok) : Gen [a] (.t a.1.kind) (TV a) := by
  intro ts h hp
  obtain ⟨t, rfl⟩ : ∃ t, ts = [t] := by
    match ts, h with
    | [t], _ => exact ⟨t, rfl⟩
  have : absL t = a := by simpa using h
  subst this
  obtain ⟨h1, h2⟩ := hp t (by simp)
  exact ⟨Val.ofTok t, FDeriv.tok t, rfl, rfl, rfl, h1, h2, rfl, rfl, rfl, rfl⟩

theorem Gen.mono {as x} {R R' : Val → Prop} (h : Gen as x R) (h' : ∀ v, R v → R' v) : Gen as x R' := fun ts h1 h2 => by
  obtain ⟨v, a, b⟩ := h ts h1 h2; exact ⟨v, a, h' v b⟩

theorem Gen.cast {as as' x} {R : Val → Prop} (h : Gen as x R) (e : as = as') : Gen as' x R := e ▸ h

theorem GenL.nil : GenL [] [] (· = []) := by
  intro ts h _
  have : ts = [] := by simpa using h
  subst this
  exact ⟨[], FDerivL.nil, rfl⟩

theorem GenL.cons {a1 a2 x xs} {R1 : Val → Prop} {R2 : List Val → Prop} (h1 : Gen a1 x R1) (h2 : GenL a2 xs R2) :
    GenL (a1 ++ a2) (x :: xs) (fun vs => ∃ v vs', vs = v :: vs' ∧ R1 v ∧ R2 vs') := by
  intro ts h hp
  obtain ⟨t1, t2, rfl, e1, e2⟩ := List.map_eq_append_iff.1 h
  obtain ⟨v, d1, r1⟩ := h1 t1 e1 (fun t ht => hp t (List.mem_append_left _ ht))
  obtain ⟨vs, d2, r2⟩ := h2 t2 e2 (fun t ht => hp t (List.mem_append_right _ ht))
  exact ⟨v :: vs, FDerivL.cons _ _ _ _ _ _ d1 d2, v, vs, rfl, r1, r2⟩

theorem GenL.prod {as rhs} {R : List Val → Prop} {a : FNT} {r : Nat} {R' : Val → Prop} (h : GenL as rhs R) (hm : (a, r, rhs) ∈ fine) (hr : r ≠ 0)
    (hs : ∀ vs, R vs → ∃ v, sem r vs = some v ∧ R' v) : Gen as (.n a) R' := by
  intro ts h1 h2
  obtain ⟨vs, d, q⟩ := h ts h1 h2
  obtain ⟨v, e, q'⟩ := hs vs q
  exact ⟨v, FDeriv.prod _ _ _ _ _ _ hm hr d e, q'⟩

theorem Gen.incl {as b} {R : Val → Prop} {a : FNT} (hm : (a, 0, [FSym.n b]) ∈ fine) (h : Gen as (.n b) R) : Gen as (.n a) R := by
  intro ts h1 h2
  obtain ⟨v, d, q⟩ := h ts h1 h2
  exact ⟨v, FDeriv.incl _ _ _ _ hm d, q⟩

section
variable {a : FNT} {r : Nat} {R R1 R2 R3 R4 R5 R6 R7 R8 : Val → Prop} {x1 x2 x3 x4 x5 x6 x7 x8 : FSym} {a1 a2 a3 a4 a5 a6 a7 a8 : List LTok}

theorem Gen.prod0 (hm : (a, r, []) ∈ fine) (hr : r ≠ 0) (hs : ∃ v, sem r [] = some v ∧ R v) : Gen [] (.n a) R :=
  GenL.nil.prod hm hr (fun vs e => by rw [e]; exact hs)

theorem Gen.prod1 (hm : (a, r, [x1]) ∈ fine) (hr : r ≠ 0) (h1 : Gen a1 x1 R1) (hs : ∀ v1, R1 v1 → ∃ v, sem r [v1] = some v ∧ R v) :
    Gen a1 (.n a) R := by
  have := (GenL.cons h1 GenL.nil).prod hm hr (R' := R) (by rintro _ ⟨v1, _, rfl, q1, rfl⟩; exact hs v1 q1)
  simpa using this

theorem Gen.prod2 (hm : (a, r, [x1, x2]) ∈ fine) (hr : r ≠ 0) (h1 : Gen a1 x1 R1) (h2 : Gen a2 x2 R2)
    (hs : ∀ v1 v2, R1 v1 → R2 v2 → ∃ v, sem r [v1, v2] = some v ∧ R v) : Gen (a1 ++ a2) (.n a) R := by
  have := (GenL.cons h1 (GenL.cons h2 GenL.nil)).prod hm hr (R' := R) (by rintro _ ⟨v1, _, rfl, q1, v2, _, rfl, q2, rfl⟩; exact hs v1 v2 q1 q2)
  simpa using this

theorem Gen.prod3 (hm : (a, r, [x1, x2, x3]) ∈ fine) (hr : r ≠ 0) (h1 : Gen a1 x1 R1) (h2 : Gen a2 x2 R2) (h3 : Gen a3 x3 R3)
    (hs : ∀ v1 v2 v3, R1 v1 → R2 v2 → R3 v3 → ∃ v, sem r [v1, v2, v3] = some v ∧ R v) : Gen (a1 ++ (a2 ++ a3)) (.n a) R := by
  have := (GenL.cons h1 (GenL.cons h2 (GenL.cons h3 GenL.nil))).prod hm hr (R' := R)
    (by rintro _ ⟨v1, _, rfl, q1, v2, _, rfl, q2, v3, _, rfl, q3, rfl⟩; exact hs v1 v2 v3 q1 q2 q3)
  simpa using this

theorem Gen.prod4 (hm : (a, r, [x1, x2, x3, x4]) ∈ fine) (hr : r ≠ 0) (h1 : Gen a1 x1 R1) (h2 : Gen a2 x2 R2) (h3 : Gen a3 x3 R3) (h4 : Gen a4 x4 R4)
    (hs : ∀ v1 v2 v3 v4, R1 v1 → R2 v2 → R3 v3 → R4 v4 → ∃ v, sem r [v1, v2, v3, v4] = some v ∧ R v) :
    Gen (a1 ++ (a2 ++ (a3 ++ a4))) (.n a) R := by
  have := (GenL.cons h1 (GenL.cons h2 (GenL.cons h3 (GenL.cons h4 GenL.nil)))).prod hm hr (R' := R)
    (by rintro _ ⟨v1, _, rfl, q1, v2, _, rfl, q2, v3, _, rfl, q3, v4, _, rfl, q4, rfl⟩; exact hs v1 v2 v3 v4 q1 q2 q3 q4)
  simpa using this

theorem Gen.prod5 (hm : (a, r, [x1, x2, x3, x4, x5]) ∈ fine) (hr : r ≠ 0) (h1 : Gen a1 x1 R1) (h2 : Gen a2 x2 R2) (h3 : Gen a3 x3 R3) (h4 : Gen a4 x4 R4)
    (h5 : Gen a5 x5 R5)
    (hs : ∀ v1 v2 v3 v4 v5, R1 v1 → R2 v2 → R3 v3 → R4 v4 → R5 v5 → ∃ v, sem r [v1, v2, v3, v4, v5] = some v ∧ R v) :
    Gen (a1 ++ (a2 ++ (a3 ++ (a4 ++ a5)))) (.n a) R := by
  have := (GenL.cons h1 (GenL.cons h2 (GenL.cons h3 (GenL.cons h4 (GenL.cons h5 GenL.nil))))).prod hm hr (R' := R)
    (by rintro _ ⟨v1, _, rfl, q1, v2, _, rfl, q2, v3, _, rfl, q3, v4, _, rfl, q4, v5, _, rfl, q5, rfl⟩; exact hs v1 v2 v3 v4 v5 q1 q2 q3 q4 q5)
  simpa using this

theorem Gen.prod6 (hm : (a, r, [x1, x2, x3, x4, x5, x6]) ∈ fine) (hr : r ≠ 0) (h1 : Gen a1 x1 R1) (h2 : Gen a2 x2 R2) (h3 : Gen a3 x3 R3)
    (h4 : Gen a4 x4 R4) (h5 : Gen a5 x5 R5) (h6 : Gen a6 x6 R6)
    (hs : ∀ v1 v2 v3 v4 v5 v6, R1 v1 → R2 v2 → R3 v3 → R4 v4 → R5 v5 → R6 v6 → ∃ v, sem r [v1, v2, v3, v4, v5, v6] = some v ∧ R v) :
    Gen (a1 ++ (a2 ++ (a3 ++ (a4 ++ (a5 ++ a6))))) (.n a) R := by
  have := (GenL.cons h1 (GenL.cons h2 (GenL.cons h3 (GenL.cons h4 (GenL.cons h5 (GenL.cons h6 GenL.nil)))))).prod hm hr (R' := R)
    (by rintro _ ⟨v1, _, rfl, q1, v2, _, rfl, q2, v3, _, rfl, q3, v4, _, rfl, q4, v5, _, rfl, q5, v6, _, rfl, q6, rfl⟩
        exact hs v1 v2 v3 v4 v5 v6 q1 q2 q3 q4 q5 q6)
  simpa using this

theorem Gen.prod8 (hm : (a, r, [x1, x2, x3, x4, x5, x6, x7, x8]) ∈ fine) (hr : r ≠ 0) (h1 : Gen a1 x1 R1) (h2 : Gen a2 x2 R2) (h3 : Gen a3 x3 R3)
    (h4 : Gen a4 x4 R4) (h5 : Gen a5 x5 R5) (h6 : Gen a6 x6 R6) (h7 : Gen a7 x7 R7) (h8 : Gen a8 x8 R8)
    (hs : ∀ v1 v2 v3 v4 v5 v6 v7 v8, R1 v1 → R2 v2 → R3 v3 → R4 v4 → R5 v5 → R6 v6 → R7 v7 → R8 v8 →
      ∃ v, sem r [v1, v2, v3, v4, v5, v6, v7, v8] = some v ∧ R v) :
    Gen (a1 ++ (a2 ++ (a3 ++ (a4 ++ (a5 ++ (a6 ++ (a7 ++ a8))))))) (.n a) R := by
  have := (GenL.cons h1 (GenL.cons h2 (GenL.cons h3 (GenL.cons h4 (GenL.cons h5 (GenL.cons h6 (GenL.cons h7 (GenL.cons h8 GenL.nil)))))))).prod hm hr (R' := R)
    (by rintro _ ⟨v1, _, rfl, q1, v2, _, rfl, q2, v3, _, rfl, q3, v4, _, rfl, q4, v5, _, rfl, q5, v6, _, rfl, q6, v7, _, rfl, q7, v8, _, rfl, q8, rfl⟩
        exact hs v1 v2 v3 v4 v5 v6 v7 v8 q1 q2 q3 q4 q5 q6 q7 q8)
  simpa using this
end

/-! ## Up through the classes -/

theorem test_up1 {as o R} {k : Nat} (h2 : 2 ≤ k) (h : k ≤ 12) (d : Gen as (.n (.test (k + 1) o)) R) : Gen as (.n (.test k o)) R := by
  refine Gen.incl ?_ d
  cases o <;> (rcases (show k = 2 ∨ k = 3 ∨ k = 4 ∨ k = 5 ∨ k = 6 ∨ k = 7 ∨ k = 8 ∨ k = 9 ∨ k = 10 ∨ k = 11 ∨ k = 12 by omega) with
    rfl | rfl | rfl | rfl | rfl | rfl | rfl | rfl | rfl | rfl | rfl)
  · exact Fm.test2false_0
  · exact Fm.test3false_0
  · exact Fm.test4false_0
  · exact Fm.test5false_0
  · exact Fm.test6false_0
  · exact Fm.test7false_0
  · exact Fm.test8false_0
  · exact Fm.test9false_0
  · exact Fm.test10false_0
  · exact Fm.test11false_0
  · exact Fm.test12false_0
  · exact Fm.test2true_0
  · exact Fm.test3true_0
  · exact Fm.test4true_0
  · exact Fm.test5true_0
  · exact Fm.test6true_0
  · exact Fm.test7true_0
  · exact Fm.test8true_0
  · exact Fm.test9true_0
  · exact Fm.test10true_0
  · exact Fm.test11true_0
  · exact Fm.test12true_0

theorem test_up {as o R} {p q : Nat} (h2 : 2 ≤ p) (h : p ≤ q) (hq : q ≤ 13) (d : Gen as (.n (.test q o)) R) : Gen as (.n (.test p o)) R := by
  obtain ⟨n, rfl⟩ : ∃ n, q = p + n := ⟨q - p, by omega⟩
  clear h
  induction n with
  | zero => exact d
  | succ n ih => exact ih (by omega) (test_up1 (by omega) (by omega) d)

theorem prim_up {as R} (d : Gen as (.n .primary) R) : Gen as (.n .primaryExpr) R := Gen.incl Fm.primaryExpr_0 d
theorem primInt_up {as R} (d : Gen as (.n .primaryInt) R) : Gen as (.n .primaryExpr) R := Gen.incl Fm.primaryExpr_0_1 d
theorem primExpr_up {as R} (d : Gen as (.n .primaryExpr) R) : Gen as (.n (.test 13 false)) R :=
  Gen.prod1 Fm.test13false_89 (by decide) d (fun v h => ⟨v, rfl, h⟩)
theorem test_any2 {as o R} (d : Gen as (.n (.test 2 o)) R) : Gen as (.n (.any 2)) R := by
  cases o
  · exact Gen.incl Fm.any2_0 d
  · exact Gen.incl Fm.any2_0_1 d
theorem test_any3 {as o R} (d : Gen as (.n (.test 3 o)) R) : Gen as (.n (.any 3)) R := by
  cases o
  · exact Gen.incl Fm.any3_0 d
  · exact Gen.incl Fm.any3_0_1 d

/-- primary expression or higher: as an operand at level 13 -/
theorem fits_prim {as e outer R} (hp : fits e outer = .primary ∨ fits e outer = .primaryInt) (d : Gen as (.n (fits e outer)) R) : Gen as (.n .primaryExpr) R := by
  rcases hp with h | h
  · rw [h] at d; exact prim_up d
  · rw [h] at d; exact primInt_up d

theorem fits_prim13 {as e outer R} (hp : fits e outer = .primary ∨ fits e outer = .primaryInt) (d : Gen as (.n (fits e outer)) R) : Gen as (.n (.test 13 false)) R :=
  primExpr_up (fits_prim hp d)

/-- base of a suffix or operand of a unary operator -/
theorem fits14 {as e R} (hc : isCond e = false) (he : Ok e) (d : Gen as (.n (fits e 14)) R) : Gen as (.n .primaryExpr) R := by
  refine fits_prim ?_ d
  cases he <;> first | (exact .inl rfl) | skip
  case int => exact fits_literal _ _ _ _
  case float => exact fits_literal _ _ _ _
  case binary p op lb y h _ _ _ _ =>
    obtain ⟨h1, h2⟩ := opPrec_bin h
    left; unfold fits; simp only; rw [if_pos (by omega)]
  case cond => cases hc

theorem fits14' {as e R} (hc : isCond e = false) (hi : isInt e = false) (he : Ok e) (d : Gen as (.n (fits e 14)) R) : Gen as (.n .primary) R := by
  have : fits e 14 = .primary := by
    cases he <;> first | rfl | skip
    case int t h => unfold fits; unfold isInt at hi; simp only [Bool.not_eq_false'] at hi; simp only [hi, if_true]
    case float t h => unfold fits; unfold isInt at hi; simp only [Bool.not_eq_false'] at hi; simp only [hi, if_true]
    case binary p op lb y h _ _ _ _ =>
      obtain ⟨h1, h2⟩ := opPrec_bin h
      unfold fits; simp only; rw [if_pos (by omega)]
    case cond => cases hc
  rw [this] at d; exact d

/-- an operand of a binary operator -/
theorem fits_op {as e R} {p : Nat} (h4 : 4 ≤ p) (h13 : p ≤ 13) (hc : isCond e = false) (he : Ok e) (d : Gen as (.n (fits e p)) R) : Gen as (.n (.test p false)) R := by
  by_cases hp : fits e p = .primary ∨ fits e p = .primaryInt
  · exact test_up (by omega) h13 (by omega) (fits_prim13 hp d)
  · cases he <;> first | (exact absurd (.inl rfl) hp) | skip
    case int => exact absurd (fits_literal _ _ _ _) hp
    case float => exact absurd (fits_literal _ _ _ _) hp
    case unary =>
      unfold fits at d; simp only at d; rw [if_neg (by omega)] at d
      exact test_up (by omega) h13 (by omega) d
    case binary q op lb y h _ _ _ _ =>
      obtain ⟨h1, h2⟩ := opPrec_bin h
      by_cases hl : opPrec op < p
      · exfalso; apply hp; left; unfold fits; simp only; rw [if_pos hl]
      · unfold fits at d; simp only at d; rw [if_neg hl, if_neg (by omega)] at d
        exact test_up (by omega) (by omega) (by omega) d
    case is => exfalso; apply hp; left; unfold fits; simp only; rw [if_pos (by rw [opPrec_is (by decide)]; omega)]
    case isNot => exfalso; apply hp; left; unfold fits; simp only; rw [if_pos (by rw [opPrec_is (by decide)]; omega)]
    case lambda => exfalso; apply hp; left; unfold fits; simp only; rw [if_pos (by omega)]
    case cond => cases hc

/-- a part of a conditional -/
theorem fits3 {as e R} (hc : isCond e = false) (he : Ok e) (d : Gen as (.n (fits e 3)) R) : Gen as (.n (.test 3 false)) R := by
  by_cases hp : fits e 3 = .primary ∨ fits e 3 = .primaryInt
  · exact test_up (by omega) (by omega) (by omega) (fits_prim13 hp d)
  · cases he <;> first | (exact absurd (.inl rfl) hp) | skip
    case int => exact absurd (fits_literal _ _ _ _) hp
    case float => exact absurd (fits_literal _ _ _ _) hp
    case unary =>
      exact test_up (by omega) (show 3 ≤ 13 by omega) (by omega) d
    case binary q op lb y h _ _ _ _ =>
      obtain ⟨h1, h2⟩ := opPrec_bin h
      unfold fits at d; simp only at d; rw [if_neg (by omega), if_neg (by omega)] at d
      exact test_up (by omega) (by omega) (by omega) d
    case cond => cases hc

theorem fits3c {as e R} (he : Ok e) (d : Gen as (.n (fits e 3)) R) : Gen as (.n (.test 2 false)) R := by
  cases hc : isCond e with
  | false => exact test_up1 (k := 2) (by omega) (by omega) (fits3 hc he d)
  | true =>
    cases e <;> first | (cases hc) | skip
    exact d

/-- right operand of `is` -/
theorem fits1 {as e R} (hc : isCond e = false) (he : Ok e) (d : Gen as (.n (fits e 1)) R) : Gen as (.n (.test 4 (isLambda e))) R := by
  by_cases hp : fits e 1 = .primary ∨ fits e 1 = .primaryInt
  · have hl : isLambda e = false := by
      cases e <;> first | rfl | skip
      simp [fits] at hp
    rw [hl]
    exact test_up (by omega) (by omega) (by omega) (fits_prim13 hp d)
  · cases he <;> first | (exact absurd (.inl rfl) hp) | skip
    case int => exact absurd (fits_literal _ _ _ _) hp
    case float => exact absurd (fits_literal _ _ _ _) hp
    case unary => exact test_up (by omega) (show 4 ≤ 13 by omega) (by omega) d
    case binary q op lb y h _ _ _ _ =>
      obtain ⟨h1, h2⟩ := opPrec_bin h
      unfold fits at d; simp only at d; rw [if_neg (by omega), if_neg (by omega)] at d
      exact test_up (by omega) (by omega) (by omega) d
    case lambda => exact test_up (by omega) (show 4 ≤ 13 by omega) (by omega) d
    case cond => cases hc

/-- right operand of `is not` -/
theorem fits1' {as e R} (hc : isCond e = false) (hb : isBin e = false) (he : Ok e) (d : Gen as (.n (fits e 1)) R) : Gen as (.n (.test 13 (isLambda e))) R := by
  by_cases hp : fits e 1 = .primary ∨ fits e 1 = .primaryInt
  · have hl : isLambda e = false := by
      cases e <;> first | rfl | skip
      simp [fits] at hp
    rw [hl]
    exact fits_prim13 hp d
  · cases he <;> first | (exact absurd (.inl rfl) hp) | skip
    case int => exact absurd (fits_literal _ _ _ _) hp
    case float => exact absurd (fits_literal _ _ _ _) hp
    case unary => exact d
    case binary q op lb y h _ _ _ _ =>
      simp [isBin] at hb
      exact absurd h hb
    case lambda => exact d
    case cond => cases hc

/-- an expression that is not a conditional, at the lowest precedence -/
theorem fits0 {as e R} (hc : isCond e = false) (he : Ok e) (d : Gen as (.n (fits e 0)) R) : Gen as (.n (.test 3 (openEnd e))) R := by
  by_cases hp : fits e 0 = .primary ∨ fits e 0 = .primaryInt
  · have hl : openEnd e = false := by
      cases e <;> first | rfl | skip
      case binary =>
        rcases ok_binary he with h | h
        · simp only [openEnd, bin_not_is h, Bool.false_and]
        · simp [fits, opPrec_is h] at hp
      simp [fits] at hp
    rw [hl]
    exact test_up (by omega) (by omega) (by omega) (fits_prim13 hp d)
  · cases he <;> first | (exact absurd (.inl rfl) hp) | skip
    case int => exact absurd (fits_literal _ _ _ _) hp
    case float => exact absurd (fits_literal _ _ _ _) hp
    case unary => exact test_up (by omega) (show 3 ≤ 13 by omega) (by omega) d
    case binary q op lb y h _ _ _ _ =>
      obtain ⟨h1, h2⟩ := opPrec_bin h
      unfold fits at d; simp only at d; rw [if_neg (by omega), if_neg (by omega)] at d
      have hl := bin_not_is h
      simp only [openEnd, hl, Bool.false_and]
      exact test_up (by omega) (by omega) (by omega) d
    case is => exact d
    case isNot => exact d
    case lambda => exact test_up (by omega) (show 3 ≤ 13 by omega) (by omega) d
    case cond => cases hc

theorem fits0_3 {as e R} (hc : isCond e = false) (he : Ok e) (d : Gen as (.n (fits e 0)) R) : Gen as (.n (.any 3)) R := test_any3 (fits0 hc he d)

/-- any expression at the lowest precedences -/
theorem fits_any {as e R} {p : Nat} (hp : p ≤ 2) (he : Ok e) (d : Gen as (.n (fits e p)) R) : Gen as (.n (.any 2)) R := by
  have key : ∀ q o, 2 ≤ q → q ≤ 13 → Gen as (.n (.test q o)) R → Gen as (.n (.any 2)) R := fun q o h1 h2 h => test_any2 (test_up (by omega) h1 h2 h)
  by_cases hpr : fits e p = .primary ∨ fits e p = .primaryInt
  · exact key 13 false (by omega) (by omega) (fits_prim13 hpr d)
  · cases he <;> first | (exact absurd (.inl rfl) hpr) | skip
    case int => exact absurd (fits_literal _ _ _ _) hpr
    case float => exact absurd (fits_literal _ _ _ _) hpr
    case unary => unfold fits at d; simp only at d; rw [if_neg (by omega)] at d; exact key _ _ (by omega) (by omega) d
    case binary q op lb y h _ _ _ _ =>
      obtain ⟨h1, h2⟩ := opPrec_bin h
      unfold fits at d; simp only at d; rw [if_neg (by omega), if_neg (by omega)] at d
      exact key _ _ (by omega) (by omega) d
    case is =>
      unfold fits at d; simp only at d
      by_cases h0 : opPrec b!"is" < p
      · exfalso; apply hpr; left; unfold fits; simp only; rw [if_pos h0]
      · rw [if_neg h0, if_pos (by decide)] at d; exact key _ _ (by omega) (by omega) d
    case isNot =>
      unfold fits at d; simp only at d
      by_cases h0 : opPrec b!"is not" < p
      · exfalso; apply hpr; left; unfold fits; simp only; rw [if_pos h0]
      · rw [if_neg h0, if_pos (by decide)] at d; exact key _ _ (by omega) (by omega) d
    case lambda => unfold fits at d; simp only at d; rw [if_neg (by omega)] at d; exact key _ _ (by omega) (by omega) d
    case cond => exact key _ _ (by omega) (by omega) d

/-- a loop variable -/
theorem fits_var {as e R} (hp : isPrimary e) (d : Gen as (.n (fits e 0)) R) : Gen as (.n .primaryExpr) R := by
  refine fits_prim ?_ d
  cases e <;> first | (exact .inl rfl) | (cases hp) | skip
  case literal => exact fits_literal _ _ _ _

end Verif.Again
