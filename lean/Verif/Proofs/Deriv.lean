import Verif.Props.Grammar
/-
Induction over derivations: a property of semantic values holds of every derivation if every production preserves it.
-/
namespace Verif.Props.Grammar
open Verif Verif.Syntax Verif.Lexer Verif.Parser Verif.Grammar Verif.LR

/-- a property of nonterminals, tokens and values -/
abbrev VP := NT → List Tok → Val → Prop

/-- the property for a symbol: a terminal has the value of its token -/
def PS (P : VP) : Sym → List Tok → Val → Prop
  | .t k, ts, v => ∃ t, ts = [t] ∧ t.kind = k ∧ v = Val.ofTok t
  | .n a, ts, v => P a ts v

/-- the property for the symbols of a right-hand side -/
def PL (P : VP) : List Sym → List Tok → List Val → Prop
  | [], ts, vs => ts = [] ∧ vs = []
  | x :: xs, ts, vs => ∃ ts1 ts2 v vs', ts = ts1 ++ ts2 ∧ vs = v :: vs' ∧ PS P x ts1 v ∧ PL P xs ts2 vs'

/-- production `r` (from 0) preserves the property -/
def StepOK (P : VP) (r : Nat) : Prop :=
  ∀ a rhs, productions[r]? = some (a, rhs) → ∀ ts vs v, PL P rhs ts vs → sem (r + 1) vs = some v → P a ts v

theorem deriv_induct (P : VP) (H : ∀ r, r < 148 → StepOK P r) {x ts v} (h : Deriv x ts v) : PS P x ts v := by
  refine Deriv.rec (motive_1 := fun x ts v _ => PS P x ts v) (motive_2 := fun xs ts vs _ => PL P xs ts vs) ?_ ?_ ?_ ?_ h
  · intro t; exact ⟨t, rfl, rfl, rfl⟩
  · intro r a rhs ts vs v hp _ hs ih
    have hr : r < 148 := by
      have := (List.getElem?_eq_some_iff.1 hp).1
      have h148 : productions.length = 148 := rfl
      omega
    exact H r hr a rhs hp ts vs v ih hs
  · exact ⟨rfl, rfl⟩
  · intro x xs ts ts' v vs _ _ h1 h2
    exact ⟨ts, ts', v, vs, rfl, rfl, h1, h2⟩

/-! One introduction rule per length of the right-hand side. -/

theorem prod0 {P : VP} {r : Nat} {a : NT} (hp : productions[r]? = some (a, []))
    (H : ∀ (v : Val), sem (r + 1) [] = some v → P a ([]) v) : StepOK P r := by
  intro a' rhs' hp' ts vs v hl hs
  rw [hp] at hp'
  cases hp'
  obtain ⟨rfl, rfl⟩ := hl
  exact H v hs

theorem prod1 {P : VP} {r : Nat} {a : NT} {x1 : Sym} (hp : productions[r]? = some (a, [x1]))
    (H : ∀ (t1 : List Tok) (v1 : Val) (v : Val), PS P x1 t1 v1 → sem (r + 1) [v1] = some v → P a (t1) v) : StepOK P r := by
  intro a' rhs' hp' ts vs v hl hs
  rw [hp] at hp'
  cases hp'
  obtain ⟨t1, s1, v1, w1, rfl, rfl, h1, hl⟩ := hl
  obtain ⟨rfl, rfl⟩ := hl
  have := H t1 v1 v h1 hs
  simpa [List.append_assoc] using this

theorem prod2 {P : VP} {r : Nat} {a : NT} {x1 x2 : Sym} (hp : productions[r]? = some (a, [x1, x2]))
    (H : ∀ (t1 t2 : List Tok) (v1 v2 : Val) (v : Val), PS P x1 t1 v1 → PS P x2 t2 v2 → sem (r + 1) [v1, v2] = some v → P a (t1 ++ t2) v) : StepOK P r := by
  intro a' rhs' hp' ts vs v hl hs
  rw [hp] at hp'
  cases hp'
  obtain ⟨t1, s1, v1, w1, rfl, rfl, h1, hl⟩ := hl
  obtain ⟨t2, s2, v2, w2, rfl, rfl, h2, hl⟩ := hl
  obtain ⟨rfl, rfl⟩ := hl
  have := H t1 t2 v1 v2 v h1 h2 hs
  simpa [List.append_assoc] using this

theorem prod3 {P : VP} {r : Nat} {a : NT} {x1 x2 x3 : Sym} (hp : productions[r]? = some (a, [x1, x2, x3]))
    (H : ∀ (t1 t2 t3 : List Tok) (v1 v2 v3 : Val) (v : Val), PS P x1 t1 v1 → PS P x2 t2 v2 → PS P x3 t3 v3 → sem (r + 1) [v1, v2, v3] = some v → P a (t1 ++ t2 ++ t3) v) : StepOK P r := by
  intro a' rhs' hp' ts vs v hl hs
  rw [hp] at hp'
  cases hp'
  obtain ⟨t1, s1, v1, w1, rfl, rfl, h1, hl⟩ := hl
  obtain ⟨t2, s2, v2, w2, rfl, rfl, h2, hl⟩ := hl
  obtain ⟨t3, s3, v3, w3, rfl, rfl, h3, hl⟩ := hl
  obtain ⟨rfl, rfl⟩ := hl
  have := H t1 t2 t3 v1 v2 v3 v h1 h2 h3 hs
  simpa [List.append_assoc] using this

theorem prod4 {P : VP} {r : Nat} {a : NT} {x1 x2 x3 x4 : Sym} (hp : productions[r]? = some (a, [x1, x2, x3, x4]))
    (H : ∀ (t1 t2 t3 t4 : List Tok) (v1 v2 v3 v4 : Val) (v : Val), PS P x1 t1 v1 → PS P x2 t2 v2 → PS P x3 t3 v3 → PS P x4 t4 v4 → sem (r + 1) [v1, v2, v3, v4] = some v → P a (t1 ++ t2 ++ t3 ++ t4) v) : StepOK P r := by
  intro a' rhs' hp' ts vs v hl hs
  rw [hp] at hp'
  cases hp'
  obtain ⟨t1, s1, v1, w1, rfl, rfl, h1, hl⟩ := hl
  obtain ⟨t2, s2, v2, w2, rfl, rfl, h2, hl⟩ := hl
  obtain ⟨t3, s3, v3, w3, rfl, rfl, h3, hl⟩ := hl
  obtain ⟨t4, s4, v4, w4, rfl, rfl, h4, hl⟩ := hl
  obtain ⟨rfl, rfl⟩ := hl
  have := H t1 t2 t3 t4 v1 v2 v3 v4 v h1 h2 h3 h4 hs
  simpa [List.append_assoc] using this

theorem prod5 {P : VP} {r : Nat} {a : NT} {x1 x2 x3 x4 x5 : Sym} (hp : productions[r]? = some (a, [x1, x2, x3, x4, x5]))
    (H : ∀ (t1 t2 t3 t4 t5 : List Tok) (v1 v2 v3 v4 v5 : Val) (v : Val), PS P x1 t1 v1 → PS P x2 t2 v2 → PS P x3 t3 v3 → PS P x4 t4 v4 → PS P x5 t5 v5 → sem (r + 1) [v1, v2, v3, v4, v5] = some v → P a (t1 ++ t2 ++ t3 ++ t4 ++ t5) v) : StepOK P r := by
  intro a' rhs' hp' ts vs v hl hs
  rw [hp] at hp'
  cases hp'
  obtain ⟨t1, s1, v1, w1, rfl, rfl, h1, hl⟩ := hl
  obtain ⟨t2, s2, v2, w2, rfl, rfl, h2, hl⟩ := hl
  obtain ⟨t3, s3, v3, w3, rfl, rfl, h3, hl⟩ := hl
  obtain ⟨t4, s4, v4, w4, rfl, rfl, h4, hl⟩ := hl
  obtain ⟨t5, s5, v5, w5, rfl, rfl, h5, hl⟩ := hl
  obtain ⟨rfl, rfl⟩ := hl
  have := H t1 t2 t3 t4 t5 v1 v2 v3 v4 v5 v h1 h2 h3 h4 h5 hs
  simpa [List.append_assoc] using this

theorem prod6 {P : VP} {r : Nat} {a : NT} {x1 x2 x3 x4 x5 x6 : Sym} (hp : productions[r]? = some (a, [x1, x2, x3, x4, x5, x6]))
    (H : ∀ (t1 t2 t3 t4 t5 t6 : List Tok) (v1 v2 v3 v4 v5 v6 : Val) (v : Val), PS P x1 t1 v1 → PS P x2 t2 v2 → PS P x3 t3 v3 → PS P x4 t4 v4 → PS P x5 t5 v5 → PS P x6 t6 v6 → sem (r + 1) [v1, v2, v3, v4, v5, v6] = some v → P a (t1 ++ t2 ++ t3 ++ t4 ++ t5 ++ t6) v) : StepOK P r := by
  intro a' rhs' hp' ts vs v hl hs
  rw [hp] at hp'
  cases hp'
  obtain ⟨t1, s1, v1, w1, rfl, rfl, h1, hl⟩ := hl
  obtain ⟨t2, s2, v2, w2, rfl, rfl, h2, hl⟩ := hl
  obtain ⟨t3, s3, v3, w3, rfl, rfl, h3, hl⟩ := hl
  obtain ⟨t4, s4, v4, w4, rfl, rfl, h4, hl⟩ := hl
  obtain ⟨t5, s5, v5, w5, rfl, rfl, h5, hl⟩ := hl
  obtain ⟨t6, s6, v6, w6, rfl, rfl, h6, hl⟩ := hl
  obtain ⟨rfl, rfl⟩ := hl
  have := H t1 t2 t3 t4 t5 t6 v1 v2 v3 v4 v5 v6 v h1 h2 h3 h4 h5 h6 hs
  simpa [List.append_assoc] using this

theorem prod8 {P : VP} {r : Nat} {a : NT} {x1 x2 x3 x4 x5 x6 x7 x8 : Sym} (hp : productions[r]? = some (a, [x1, x2, x3, x4, x5, x6, x7, x8]))
    (H : ∀ (t1 t2 t3 t4 t5 t6 t7 t8 : List Tok) (v1 v2 v3 v4 v5 v6 v7 v8 : Val) (v : Val), PS P x1 t1 v1 → PS P x2 t2 v2 → PS P x3 t3 v3 → PS P x4 t4 v4 → PS P x5 t5 v5 → PS P x6 t6 v6 → PS P x7 t7 v7 → PS P x8 t8 v8 → sem (r + 1) [v1, v2, v3, v4, v5, v6, v7, v8] = some v → P a (t1 ++ t2 ++ t3 ++ t4 ++ t5 ++ t6 ++ t7 ++ t8) v) : StepOK P r := by
  intro a' rhs' hp' ts vs v hl hs
  rw [hp] at hp'
  cases hp'
  obtain ⟨t1, s1, v1, w1, rfl, rfl, h1, hl⟩ := hl
  obtain ⟨t2, s2, v2, w2, rfl, rfl, h2, hl⟩ := hl
  obtain ⟨t3, s3, v3, w3, rfl, rfl, h3, hl⟩ := hl
  obtain ⟨t4, s4, v4, w4, rfl, rfl, h4, hl⟩ := hl
  obtain ⟨t5, s5, v5, w5, rfl, rfl, h5, hl⟩ := hl
  obtain ⟨t6, s6, v6, w6, rfl, rfl, h6, hl⟩ := hl
  obtain ⟨t7, s7, v7, w7, rfl, rfl, h7, hl⟩ := hl
  obtain ⟨t8, s8, v8, w8, rfl, rfl, h8, hl⟩ := hl
  obtain ⟨rfl, rfl⟩ := hl
  have := H t1 t2 t3 t4 t5 t6 t7 t8 v1 v2 v3 v4 v5 v6 v7 v8 v h1 h2 h3 h4 h5 h6 h7 h8 hs
  simpa [List.append_assoc] using this

/-! Actions with case distinctions. -/

/-- what production 54 (`'(' tests_opt ')'`) builds -/
def parenOrTuple (p1 : Pos) (v2 : Val) (p3 : Pos) : Expr :=
  if v2.exprs.length = 1 ∧ v2.comma.line = 0 then .paren {} p1 (v2.exprs.headD .nil) ⟨{}, p3⟩ (forceMultiLine p1 v2.exprs p3)
  else .tuple {} false p1 v2.exprs ⟨{}, p3⟩ (forceCompact p1 v2.exprs p3) (forceMultiLine p1 v2.exprs p3)

theorem sem54 (v1 v2 v3 : Val) : sem 54 [v1, v2, v3] = some { v1 with expr := parenOrTuple v1.pos v2 v3.pos } := by
  obtain ⟨tok, str, pos, triple, expr, exprs, la, comma, last⟩ := v2
  unfold parenOrTuple
  cases exprs with
  | nil => rfl
  | cons x l =>
    cases l with
    | cons y l => simp; rfl
    | nil =>
      by_cases hc : comma.line = 0
      · simp only [hc, List.length_cons, List.length_nil, Nat.zero_add, and_self, if_true, List.headD_cons]
        exact if_pos hc
      · simp only [hc, and_false, if_false]
        exact if_neg hc

/-- what production 116 (`test _IS test`) builds -/
def mkIs (x : Expr) (p : Pos) (op : Bytes) (y : Expr) : Expr :=
  match y with
  | .unary c o uop z => if uop = b!"not" then mkBinary x p b!"is not" z else mkBinary x p op (.unary c o uop z)
  | y => mkBinary x p op y

theorem sem116 (v1 v2 v3 : Val) : sem 116 [v1, v2, v3] = some { v1 with expr := mkIs v1.expr v2.pos v2.tok v3.expr } := by
  obtain ⟨tok, str, pos, triple, expr, exprs, la, comma, last⟩ := v3
  cases expr with
  | unary c o uop z =>
    by_cases h : uop = b!"not"
    · rw [show mkIs v1.expr v2.pos v2.tok (.unary c o uop z) = mkBinary v1.expr v2.pos b!"is not" z from if_pos h]
      exact if_pos h
    · rw [show mkIs v1.expr v2.pos v2.tok (.unary c o uop z) = mkBinary v1.expr v2.pos v2.tok (.unary c o uop z) from if_neg h]
      exact if_neg h
  | _ => rfl

/-- production 17 (`def_header _ARROW test`) needs a definition -/
theorem sem17 {v1 v2 v3 v : Val} (h : sem 17 [v1, v2, v3] = some v) :
    ∃ c sp n ps b cp fc fm t, v1.expr = .defS c sp n ps b cp fc fm t ∧ v = { v1 with expr := .defS c sp n ps b cp fc fm v3.expr } := by
  obtain ⟨tok, str, pos, triple, expr, exprs, la, comma, last⟩ := v1
  cases expr with
  | defS c sp n ps b cp fc fm t => cases h; exact ⟨c, sp, n, ps, b, cp, fc, fm, t, rfl, rfl⟩
  | _ => cases h

/-- production 18 (`def_header_type_opt ':' suite`) needs a definition -/
theorem sem18 {v1 v2 v3 v : Val} (h : sem 18 [v1, v2, v3] = some v) :
    ∃ c sp n ps b cp fc fm t, v1.expr = .defS c sp n ps b cp fc fm t ∧
      v = { v1 with expr := .defS c sp n ps v3.exprs v2.pos fc fm t, last := v3.last } := by
  obtain ⟨tok, str, pos, triple, expr, exprs, la, comma, last⟩ := v1
  cases expr with
  | defS c sp n ps b cp fc fm t => cases h; exact ⟨c, sp, n, ps, b, cp, fc, fm, t, rfl, rfl⟩
  | _ => cases h

end Verif.Props.Grammar
