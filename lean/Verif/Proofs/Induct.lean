import Verif.Proofs.Deriv
/-
Induction over derivations, with a condition on the tokens.
-/
namespace Verif.Induct
open Verif Verif.Syntax Verif.Lexer Verif.Parser Verif.Grammar Verif.Props.Grammar

/-- a condition on tokens that holds for parts -/
structure Cond (G : List Tok → Prop) : Prop where
  left : ∀ {a b}, G (a ++ b) → G a
  right : ∀ {a b}, G (a ++ b) → G b

variable (G : List Tok → Prop) (Q : NT → List Tok → Val → Prop)

/-- a symbol -/
def GSym : Sym → List Tok → Val → Prop
  | .t k, ts, v => ∃ t, ts = [t] ∧ t.kind = k ∧ v = Val.ofTok t ∧ G [t]
  | .n a, ts, v => Q a ts v

/-- a right-hand side -/
def GRhs : List Sym → List Tok → List Val → Prop
  | [], ts, vs => ts = [] ∧ vs = []
  | x :: xs, ts, vs => ∃ ts1 ts2 v vs', ts = ts1 ++ ts2 ∧ vs = v :: vs' ∧ GSym G Q x ts1 v ∧ GRhs xs ts2 vs'

/-- production `r` (from 0) preserves the property -/
def GStep (r : Nat) : Prop :=
  ∀ a rhs, productions[r]? = some (a, rhs) → ∀ ts vs v, G ts → GRhs G Q rhs ts vs → sem (r + 1) vs = some v → Q a ts v

variable {G : List Tok → Prop} {Q : NT → List Tok → Val → Prop}

theorem g_induct (hG : Cond G) (H : ∀ r, r < 148 → GStep G Q r) {x ts v} (h : Deriv x ts v) : G ts → GSym G Q x ts v := by
  refine Deriv.rec (motive_1 := fun x ts v _ => G ts → GSym G Q x ts v) (motive_2 := fun xs ts vs _ => G ts → GRhs G Q xs ts vs) ?_ ?_ ?_ ?_ h
  · intro t hT
    exact ⟨t, rfl, rfl, rfl, hT⟩
  · intro r a rhs ts vs v hp _ hs ih hT
    have hr : r < 148 := by
      have := (List.getElem?_eq_some_iff.1 hp).1
      have h148 : productions.length = 148 := rfl
      omega
    exact H r hr a rhs hp ts vs v hT (ih hT) hs
  · intro _; exact ⟨rfl, rfl⟩
  · intro x xs ts ts' v vs _ _ h1 h2 hT
    exact ⟨ts, ts', v, vs, rfl, rfl, h1 (hG.left hT), h2 (hG.right hT)⟩

/-! One introduction rule per length of the right-hand side. -/

theorem g0 {r : Nat} {a : NT} (hp : productions[r]? = some (a, []))
    (H : ∀ (v : Val), G ([]) → sem (r + 1) [] = some v → Q a ([]) v) : GStep G Q r := by
  intro a' rhs' hp' ts vs v hT hl hs
  rw [hp] at hp'
  cases hp'
  obtain ⟨rfl, rfl⟩ := hl
  exact H _ hT  hs

theorem g1 {r : Nat} {a : NT} {x1 : Sym} (hp : productions[r]? = some (a, [x1]))
    (H : ∀ (t1 : List Tok) (v1 : Val) (v : Val), G (t1) → GSym G Q x1 t1 v1 → sem (r + 1) [v1] = some v → Q a (t1) v) : GStep G Q r := by
  intro a' rhs' hp' ts vs v hT hl hs
  rw [hp] at hp'
  cases hp'
  obtain ⟨t1, s1, v1, w1, rfl, rfl, h1, hl⟩ := hl
  obtain ⟨rfl, rfl⟩ := hl
  simp only [List.append_nil] at hT ⊢
  exact H _ _ _ hT h1 hs

theorem g2 {r : Nat} {a : NT} {x1 x2 : Sym} (hp : productions[r]? = some (a, [x1, x2]))
    (H : ∀ (t1 t2 : List Tok) (v1 v2 : Val) (v : Val), G (t1 ++ (t2)) → GSym G Q x1 t1 v1 → GSym G Q x2 t2 v2 → sem (r + 1) [v1, v2] = some v → Q a (t1 ++ (t2)) v) : GStep G Q r := by
  intro a' rhs' hp' ts vs v hT hl hs
  rw [hp] at hp'
  cases hp'
  obtain ⟨t1, s1, v1, w1, rfl, rfl, h1, hl⟩ := hl
  obtain ⟨t2, s2, v2, w2, rfl, rfl, h2, hl⟩ := hl
  obtain ⟨rfl, rfl⟩ := hl
  simp only [List.append_nil] at hT ⊢
  exact H _ _ _ _ _ hT h1 h2 hs

theorem g3 {r : Nat} {a : NT} {x1 x2 x3 : Sym} (hp : productions[r]? = some (a, [x1, x2, x3]))
    (H : ∀ (t1 t2 t3 : List Tok) (v1 v2 v3 : Val) (v : Val), G (t1 ++ (t2 ++ (t3))) → GSym G Q x1 t1 v1 → GSym G Q x2 t2 v2 → GSym G Q x3 t3 v3 → sem (r + 1) [v1, v2, v3] = some v → Q a (t1 ++ (t2 ++ (t3))) v) : GStep G Q r := by
  intro a' rhs' hp' ts vs v hT hl hs
  rw [hp] at hp'
  cases hp'
  obtain ⟨t1, s1, v1, w1, rfl, rfl, h1, hl⟩ := hl
  obtain ⟨t2, s2, v2, w2, rfl, rfl, h2, hl⟩ := hl
  obtain ⟨t3, s3, v3, w3, rfl, rfl, h3, hl⟩ := hl
  obtain ⟨rfl, rfl⟩ := hl
  simp only [List.append_nil] at hT ⊢
  exact H _ _ _ _ _ _ _ hT h1 h2 h3 hs

theorem g4 {r : Nat} {a : NT} {x1 x2 x3 x4 : Sym} (hp : productions[r]? = some (a, [x1, x2, x3, x4]))
    (H : ∀ (t1 t2 t3 t4 : List Tok) (v1 v2 v3 v4 : Val) (v : Val), G (t1 ++ (t2 ++ (t3 ++ (t4)))) → GSym G Q x1 t1 v1 → GSym G Q x2 t2 v2 → GSym G Q x3 t3 v3 → GSym G Q x4 t4 v4 → sem (r + 1) [v1, v2, v3, v4] = some v → Q a (t1 ++ (t2 ++ (t3 ++ (t4)))) v) : GStep G Q r := by
  intro a' rhs' hp' ts vs v hT hl hs
  rw [hp] at hp'
  cases hp'
  obtain ⟨t1, s1, v1, w1, rfl, rfl, h1, hl⟩ := hl
  obtain ⟨t2, s2, v2, w2, rfl, rfl, h2, hl⟩ := hl
  obtain ⟨t3, s3, v3, w3, rfl, rfl, h3, hl⟩ := hl
  obtain ⟨t4, s4, v4, w4, rfl, rfl, h4, hl⟩ := hl
  obtain ⟨rfl, rfl⟩ := hl
  simp only [List.append_nil] at hT ⊢
  exact H _ _ _ _ _ _ _ _ _ hT h1 h2 h3 h4 hs

theorem g5 {r : Nat} {a : NT} {x1 x2 x3 x4 x5 : Sym} (hp : productions[r]? = some (a, [x1, x2, x3, x4, x5]))
    (H : ∀ (t1 t2 t3 t4 t5 : List Tok) (v1 v2 v3 v4 v5 : Val) (v : Val), G (t1 ++ (t2 ++ (t3 ++ (t4 ++ (t5))))) → GSym G Q x1 t1 v1 → GSym G Q x2 t2 v2 → GSym G Q x3 t3 v3 → GSym G Q x4 t4 v4 → GSym G Q x5 t5 v5 → sem (r + 1) [v1, v2, v3, v4, v5] = some v → Q a (t1 ++ (t2 ++ (t3 ++ (t4 ++ (t5))))) v) : GStep G Q r := by
  intro a' rhs' hp' ts vs v hT hl hs
  rw [hp] at hp'
  cases hp'
  obtain ⟨t1, s1, v1, w1, rfl, rfl, h1, hl⟩ := hl
  obtain ⟨t2, s2, v2, w2, rfl, rfl, h2, hl⟩ := hl
  obtain ⟨t3, s3, v3, w3, rfl, rfl, h3, hl⟩ := hl
  obtain ⟨t4, s4, v4, w4, rfl, rfl, h4, hl⟩ := hl
  obtain ⟨t5, s5, v5, w5, rfl, rfl, h5, hl⟩ := hl
  obtain ⟨rfl, rfl⟩ := hl
  simp only [List.append_nil] at hT ⊢
  exact H _ _ _ _ _ _ _ _ _ _ _ hT h1 h2 h3 h4 h5 hs

theorem g6 {r : Nat} {a : NT} {x1 x2 x3 x4 x5 x6 : Sym} (hp : productions[r]? = some (a, [x1, x2, x3, x4, x5, x6]))
    (H : ∀ (t1 t2 t3 t4 t5 t6 : List Tok) (v1 v2 v3 v4 v5 v6 : Val) (v : Val), G (t1 ++ (t2 ++ (t3 ++ (t4 ++ (t5 ++ (t6)))))) → GSym G Q x1 t1 v1 → GSym G Q x2 t2 v2 → GSym G Q x3 t3 v3 → GSym G Q x4 t4 v4 → GSym G Q x5 t5 v5 → GSym G Q x6 t6 v6 → sem (r + 1) [v1, v2, v3, v4, v5, v6] = some v → Q a (t1 ++ (t2 ++ (t3 ++ (t4 ++ (t5 ++ (t6)))))) v) : GStep G Q r := by
  intro a' rhs' hp' ts vs v hT hl hs
  rw [hp] at hp'
  cases hp'
  obtain ⟨t1, s1, v1, w1, rfl, rfl, h1, hl⟩ := hl
  obtain ⟨t2, s2, v2, w2, rfl, rfl, h2, hl⟩ := hl
  obtain ⟨t3, s3, v3, w3, rfl, rfl, h3, hl⟩ := hl
  obtain ⟨t4, s4, v4, w4, rfl, rfl, h4, hl⟩ := hl
  obtain ⟨t5, s5, v5, w5, rfl, rfl, h5, hl⟩ := hl
  obtain ⟨t6, s6, v6, w6, rfl, rfl, h6, hl⟩ := hl
  obtain ⟨rfl, rfl⟩ := hl
  simp only [List.append_nil] at hT ⊢
  exact H _ _ _ _ _ _ _ _ _ _ _ _ _ hT h1 h2 h3 h4 h5 h6 hs

theorem g8 {r : Nat} {a : NT} {x1 x2 x3 x4 x5 x6 x7 x8 : Sym} (hp : productions[r]? = some (a, [x1, x2, x3, x4, x5, x6, x7, x8]))
    (H : ∀ (t1 t2 t3 t4 t5 t6 t7 t8 : List Tok) (v1 v2 v3 v4 v5 v6 v7 v8 : Val) (v : Val), G (t1 ++ (t2 ++ (t3 ++ (t4 ++ (t5 ++ (t6 ++ (t7 ++ (t8)))))))) → GSym G Q x1 t1 v1 → GSym G Q x2 t2 v2 → GSym G Q x3 t3 v3 → GSym G Q x4 t4 v4 → GSym G Q x5 t5 v5 → GSym G Q x6 t6 v6 → GSym G Q x7 t7 v7 → GSym G Q x8 t8 v8 → sem (r + 1) [v1, v2, v3, v4, v5, v6, v7, v8] = some v → Q a (t1 ++ (t2 ++ (t3 ++ (t4 ++ (t5 ++ (t6 ++ (t7 ++ (t8)))))))) v) : GStep G Q r := by
  intro a' rhs' hp' ts vs v hT hl hs
  rw [hp] at hp'
  cases hp'
  obtain ⟨t1, s1, v1, w1, rfl, rfl, h1, hl⟩ := hl
  obtain ⟨t2, s2, v2, w2, rfl, rfl, h2, hl⟩ := hl
  obtain ⟨t3, s3, v3, w3, rfl, rfl, h3, hl⟩ := hl
  obtain ⟨t4, s4, v4, w4, rfl, rfl, h4, hl⟩ := hl
  obtain ⟨t5, s5, v5, w5, rfl, rfl, h5, hl⟩ := hl
  obtain ⟨t6, s6, v6, w6, rfl, rfl, h6, hl⟩ := hl
  obtain ⟨t7, s7, v7, w7, rfl, rfl, h7, hl⟩ := hl
  obtain ⟨t8, s8, v8, w8, rfl, rfl, h8, hl⟩ := hl
  obtain ⟨rfl, rfl⟩ := hl
  simp only [List.append_nil] at hT ⊢
  exact H _ _ _ _ _ _ _ _ _ _ _ _ _ _ _ _ _ hT h1 h2 h3 h4 h5 h6 h7 h8 hs

end Verif.Induct
