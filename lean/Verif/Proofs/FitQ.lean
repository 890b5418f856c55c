import Verif.Proofs.LexGood
import Verif.Proofs.Deriv
import Verif.Proofs.PrRel
/-
What the parser builds (with comments) has nothing missing: `fit`, for derivations of the grammar.
-/
namespace Verif.Printed
open Verif Verif.Syntax Verif.Lexer Verif.Print Verif.Parser Verif.Grammar Verif.Props.Grammar Verif.Round

/-- what is known about the tokens -/
structure FToks (T : Bytes → Bool) (ts : List Tok) : Prop where
  good : ∀ t ∈ ts, TokGood t
  str : ∀ t ∈ ts, t.kind = K.string → fitString T { value := t.str, triple := t.triple, token := t.tok } = true ∧ fitString T { value := t.str } = true
  block : ∀ a t u b, ts = a ++ t :: u :: b → t.kind = K.indent → u.kind ≠ K.newline ∧ u.kind ≠ K.comment ∧ u.kind ≠ K.unindent

theorem FToks.left {T} {a b : List Tok} (h : FToks T (a ++ b)) : FToks T a :=
  ⟨fun t ht => h.good t (List.mem_append_left _ ht), fun t ht => h.str t (List.mem_append_left _ ht),
   fun x t u y e => h.block x t u (y ++ b) (by rw [e]; simp)⟩

theorem FToks.right {T} {a b : List Tok} (h : FToks T (a ++ b)) : FToks T b :=
  ⟨fun t ht => h.good t (List.mem_append_right _ ht), fun t ht => h.str t (List.mem_append_right _ ht),
   fun x t u y e => h.block (a ++ x) t u y (by rw [e]; simp)⟩

/-- a pair of names in a load statement -/
def fitPair (T : Bytes → Bool) (p : IdentN × IdentN) : Bool := fitString T { value := p.1.name } && (p.1.name == p.2.name || T p.2.name)

/-- not an operator without operand -/
def solid : Expr → Bool
  | .unary _ _ _ x => !x.isNil
  | _ => true

/-- what is true of the values of a class -/
def Q (T : Bytes → Bool) : NT → List Tok → Val → Prop
  | .primaryExpr, _, v | .test, _, v | .number, _, v => fit T false v.expr = true ∧ solid v.expr = true
  | .argument, _, v | .parameter, _, v | .parameterType, _, v | .expr, _, v | .keyvalue, _, v | .loopVars, _, v
  | .forClause, _, v | .smallStmt, _, v | .blockStmt, _, v | .ifChain, _, v | .ifElseBlock, _, v | .defHeader, _, v
  | .defHeaderTypeOpt, _, v => fit T false v.expr = true
  | .exprOpt, _, v | .testOpt, _, v => (v.expr.isNil || fit T false v.expr) = true
  | .string, _, v => ∃ n, v.expr = .string n ∧ fitString T n = true ∧ fitString T { value := n.value } = true
  | .ident, _, v => ∃ n, v.expr = .ident n ∧ T n.name = true
  | .loadArguments, _, v | .loadArgument, _, v => v.loadargs.all (fitPair T) = true
  | .argumentsOpt, _, v | .arguments, _, v | .parametersOpt, _, v | .parameters, _, v | .parametersTypeOpt, _, v | .parametersType, _, v
  | .testsOpt, _, v | .tests, _, v | .keyvaluesNoComma, _, v | .keyvalues, _, v | .forClauseWithIfClausesOpt, _, v | .forClausesWithIfClausesOpt, _, v
   => fitL T false v.exprs = true
  | .smallStmtsContinuation, _, v | .comments, _, v | .file, _, v => fitO T false v.exprs = true
  | .simpleStmt, _, v | .stmt, _, v | .suite, _, v => v.exprs ≠ [] ∧ fitO T false v.exprs = true
  | .stmts, ts, v => (v.exprs = [] → v.last = false ∧ ∀ t ∈ ts, t.kind = K.newline) ∧ fitO T false v.exprs = true
  | .linebreaksOpt, _, _ | .elif_, _, _ | .semiOpt, _, _ | .commaOpt, _, _ | .commas, _, _ | .commasOpt, _, _ => True

/-- a terminal -/
structure QTok (T : Bytes → Bool) (k : Kind) (ts : List Tok) (v : Val) : Prop where
  one : ∃ t, ts = [t] ∧ t.kind = k
  plain : k ≠ K.string → k ≠ K.newline → k ≠ K.comment → 10 ∉ v.tok
  str : k = K.string → fitString T { value := v.str, triple := v.triple, token := v.tok } = true ∧ fitString T { value := v.str } = true

/-- a symbol -/
def QSym (T : Bytes → Bool) : Sym → List Tok → Val → Prop
  | .t k, ts, v => QTok T k ts v
  | .n a, ts, v => Q T a ts v

/-- a right-hand side -/
def QRhs (T : Bytes → Bool) : List Sym → List Tok → List Val → Prop
  | [], ts, vs => ts = [] ∧ vs = []
  | x :: xs, ts, vs => ∃ ts1 ts2 v vs', ts = ts1 ++ ts2 ∧ vs = v :: vs' ∧ QSym T x ts1 v ∧ QRhs T xs ts2 vs'

/-- production `r` (from 0) preserves the property -/
def QStep (T : Bytes → Bool) (r : Nat) : Prop :=
  ∀ a rhs, productions[r]? = some (a, rhs) → ∀ ts vs v, FToks T ts → QRhs T rhs ts vs → sem (r + 1) vs = some v → Q T a ts v

theorem word_noNL {b : UInt8} (h : Props.Lexer.wordByte b) : b ≠ 10 := by
  rintro rfl
  exact absurd h (by unfold Props.Lexer.wordByte; decide)

theorem name_noNL {s : Bytes} (h : Name s) : 10 ∉ s := by
  obtain ⟨c, r, rfl, h1, _, h2, _⟩ := h
  intro hm
  rcases List.mem_cons.1 hm with e | hm
  · exact word_noNL h1 e.symm
  · exact word_noNL (h2 _ hm) rfl

theorem digits_noNL {c : UInt8} {s : Bytes} (h : Digits c s) : 10 ∉ s := by
  induction h with
  | nil => exact List.not_mem_nil
  | word _ c s h _ ih =>
    intro hm
    rcases List.mem_cons.1 hm with e | hm
    · exact word_noNL h e.symm
    · exact ih hm
  | sign _ c s h _ _ ih =>
    intro hm
    rcases List.mem_cons.1 hm with e | hm
    · subst e; rcases h with h | h <;> exact absurd h (by decide)
    · exact ih hm

theorem int_noNL {s : Bytes} (h : IntText s) : 10 ∉ s := by
  obtain ⟨c, r, rfl, h1, h2⟩ := h
  intro hm
  rcases List.mem_cons.1 hm with e | hm
  · subst e; exact absurd h1.1 (by decide)
  · exact digits_noNL h2 hm

theorem tok_noNL {t : Tok} (h : TokGood t) (h1 : t.kind ≠ K.string) (h2 : t.kind ≠ K.newline) (h3 : t.kind ≠ K.comment) : 10 ∉ t.tok := by
  by_cases hi : t.kind = K.ident
  · exact name_noNL (h.ident hi)
  · by_cases hn : t.kind = K.int
    · exact int_noNL (h.int hn)
    · exact (by decide : ∀ q ∈ Props.Lexer.fixedTokens, q.1 ≠ K.newline → 10 ∉ q.2) _ (h.fixed hi hn h1 h3) h2

theorem fit_induct {T : Bytes → Bool} (H : ∀ r, r < 148 → QStep T r) {x ts v} (h : Deriv x ts v) : FToks T ts → QSym T x ts v := by
  refine Deriv.rec (motive_1 := fun x ts v _ => FToks T ts → QSym T x ts v) (motive_2 := fun xs ts vs _ => FToks T ts → QRhs T xs ts vs) ?_ ?_ ?_ ?_ h
  · intro t hT
    have hg := hT.good t (by simp)
    exact ⟨⟨t, rfl, rfl⟩, tok_noNL hg, fun hk => hT.str t (by simp) hk⟩
  · intro r a rhs ts vs v hp _ hs ih hT
    have hr : r < 148 := by
      have := (List.getElem?_eq_some_iff.1 hp).1
      have h148 : productions.length = 148 := rfl
      omega
    exact H r hr a rhs hp ts vs v hT (ih hT) hs
  · intro _; exact ⟨rfl, rfl⟩
  · intro x xs ts ts' v vs _ _ h1 h2 hT
    exact ⟨ts, ts', v, vs, rfl, rfl, h1 hT.left, h2 hT.right⟩

/-! One introduction rule per length of the right-hand side. -/

theorem q0 {T : Bytes → Bool} {r : Nat} {a : NT} (hp : productions[r]? = some (a, []))
    (H : ∀ (v : Val), FToks T ([]) → sem (r + 1) [] = some v → Q T a ([]) v) : QStep T r := by
  intro a' rhs' hp' ts vs v hT hl hs
  rw [hp] at hp'
  cases hp'
  obtain ⟨rfl, rfl⟩ := hl
  
  exact H _ hT  hs

theorem q1 {T : Bytes → Bool} {r : Nat} {a : NT} {x1 : Sym} (hp : productions[r]? = some (a, [x1]))
    (H : ∀ (t1 : List Tok) (v1 : Val) (v : Val), FToks T (t1) → QSym T x1 t1 v1 → sem (r + 1) [v1] = some v → Q T a (t1) v) : QStep T r := by
  intro a' rhs' hp' ts vs v hT hl hs
  rw [hp] at hp'
  cases hp'
  obtain ⟨t1, s1, v1, w1, rfl, rfl, h1, hl⟩ := hl
  obtain ⟨rfl, rfl⟩ := hl
  simp only [List.append_nil] at hT ⊢
  exact H _ _ _ hT h1 hs

theorem q2 {T : Bytes → Bool} {r : Nat} {a : NT} {x1 x2 : Sym} (hp : productions[r]? = some (a, [x1, x2]))
    (H : ∀ (t1 t2 : List Tok) (v1 v2 : Val) (v : Val), FToks T (t1 ++ (t2)) → QSym T x1 t1 v1 → QSym T x2 t2 v2 → sem (r + 1) [v1, v2] = some v → Q T a (t1 ++ (t2)) v) : QStep T r := by
  intro a' rhs' hp' ts vs v hT hl hs
  rw [hp] at hp'
  cases hp'
  obtain ⟨t1, s1, v1, w1, rfl, rfl, h1, hl⟩ := hl
  obtain ⟨t2, s2, v2, w2, rfl, rfl, h2, hl⟩ := hl
  obtain ⟨rfl, rfl⟩ := hl
  simp only [List.append_nil] at hT ⊢
  exact H _ _ _ _ _ hT h1 h2 hs

theorem q3 {T : Bytes → Bool} {r : Nat} {a : NT} {x1 x2 x3 : Sym} (hp : productions[r]? = some (a, [x1, x2, x3]))
    (H : ∀ (t1 t2 t3 : List Tok) (v1 v2 v3 : Val) (v : Val), FToks T (t1 ++ (t2 ++ (t3))) → QSym T x1 t1 v1 → QSym T x2 t2 v2 → QSym T x3 t3 v3 → sem (r + 1) [v1, v2, v3] = some v → Q T a (t1 ++ (t2 ++ (t3))) v) : QStep T r := by
  intro a' rhs' hp' ts vs v hT hl hs
  rw [hp] at hp'
  cases hp'
  obtain ⟨t1, s1, v1, w1, rfl, rfl, h1, hl⟩ := hl
  obtain ⟨t2, s2, v2, w2, rfl, rfl, h2, hl⟩ := hl
  obtain ⟨t3, s3, v3, w3, rfl, rfl, h3, hl⟩ := hl
  obtain ⟨rfl, rfl⟩ := hl
  simp only [List.append_nil] at hT ⊢
  exact H _ _ _ _ _ _ _ hT h1 h2 h3 hs

theorem q4 {T : Bytes → Bool} {r : Nat} {a : NT} {x1 x2 x3 x4 : Sym} (hp : productions[r]? = some (a, [x1, x2, x3, x4]))
    (H : ∀ (t1 t2 t3 t4 : List Tok) (v1 v2 v3 v4 : Val) (v : Val), FToks T (t1 ++ (t2 ++ (t3 ++ (t4)))) → QSym T x1 t1 v1 → QSym T x2 t2 v2 → QSym T x3 t3 v3 → QSym T x4 t4 v4 → sem (r + 1) [v1, v2, v3, v4] = some v → Q T a (t1 ++ (t2 ++ (t3 ++ (t4)))) v) : QStep T r := by
  intro a' rhs' hp' ts vs v hT hl hs
  rw [hp] at hp'
  cases hp'
  obtain ⟨t1, s1, v1, w1, rfl, rfl, h1, hl⟩ := hl
  obtain ⟨t2, s2, v2, w2, rfl, rfl, h2, hl⟩ := hl
  obtain ⟨t3, s3, v3, w3, rfl, rfl, h3, hl⟩ := hl
  obtain ⟨t4, s4, v4, w4, rfl, rfl, h4, hl⟩ := hl
  obtain ⟨rfl, rfl⟩ := hl
  simp only [List.append_nil] at hT ⊢
  exact H _ _ _ _ _ _ _ _ _ hT h1 h2 h3 h4 hs

theorem q5 {T : Bytes → Bool} {r : Nat} {a : NT} {x1 x2 x3 x4 x5 : Sym} (hp : productions[r]? = some (a, [x1, x2, x3, x4, x5]))
    (H : ∀ (t1 t2 t3 t4 t5 : List Tok) (v1 v2 v3 v4 v5 : Val) (v : Val), FToks T (t1 ++ (t2 ++ (t3 ++ (t4 ++ (t5))))) → QSym T x1 t1 v1 → QSym T x2 t2 v2 → QSym T x3 t3 v3 → QSym T x4 t4 v4 → QSym T x5 t5 v5 → sem (r + 1) [v1, v2, v3, v4, v5] = some v → Q T a (t1 ++ (t2 ++ (t3 ++ (t4 ++ (t5))))) v) : QStep T r := by
  intro a' rhs' hp' ts vs v hT hl hs
  rw [hp] at hp'
  cases hp'
  obtain ⟨t1, s1, v1, w1, rfl, rfl, h1, hl⟩ := hl
  obtain ⟨t2, s2, v2, w2, rfl, rfl, h2, hl⟩ := hl
  obtain ⟨t3, s3, v3, w3, rfl, rfl, h3, hl⟩ := hl
  obtain ⟨t4, s4, v4, w4, rfl, rfl, h4, hl⟩ := hl
  obtain ⟨t5, s5, v5, w5, rfl, rfl, h5, hl⟩ := hl
  obtain ⟨rfl, rfl⟩ := hl
  simp only [List.append_nil] at hT ⊢
  exact H _ _ _ _ _ _ _ _ _ _ _ hT h1 h2 h3 h4 h5 hs

theorem q6 {T : Bytes → Bool} {r : Nat} {a : NT} {x1 x2 x3 x4 x5 x6 : Sym} (hp : productions[r]? = some (a, [x1, x2, x3, x4, x5, x6]))
    (H : ∀ (t1 t2 t3 t4 t5 t6 : List Tok) (v1 v2 v3 v4 v5 v6 : Val) (v : Val), FToks T (t1 ++ (t2 ++ (t3 ++ (t4 ++ (t5 ++ (t6)))))) → QSym T x1 t1 v1 → QSym T x2 t2 v2 → QSym T x3 t3 v3 → QSym T x4 t4 v4 → QSym T x5 t5 v5 → QSym T x6 t6 v6 → sem (r + 1) [v1, v2, v3, v4, v5, v6] = some v → Q T a (t1 ++ (t2 ++ (t3 ++ (t4 ++ (t5 ++ (t6)))))) v) : QStep T r := by
  intro a' rhs' hp' ts vs v hT hl hs
  rw [hp] at hp'
  cases hp'
  obtain ⟨t1, s1, v1, w1, rfl, rfl, h1, hl⟩ := hl
  obtain ⟨t2, s2, v2, w2, rfl, rfl, h2, hl⟩ := hl
  obtain ⟨t3, s3, v3, w3, rfl, rfl, h3, hl⟩ := hl
  obtain ⟨t4, s4, v4, w4, rfl, rfl, h4, hl⟩ := hl
  obtain ⟨t5, s5, v5, w5, rfl, rfl, h5, hl⟩ := hl
  obtain ⟨t6, s6, v6, w6, rfl, rfl, h6, hl⟩ := hl
  obtain ⟨rfl, rfl⟩ := hl
  simp only [List.append_nil] at hT ⊢
  exact H _ _ _ _ _ _ _ _ _ _ _ _ _ hT h1 h2 h3 h4 h5 h6 hs

theorem q8 {T : Bytes → Bool} {r : Nat} {a : NT} {x1 x2 x3 x4 x5 x6 x7 x8 : Sym} (hp : productions[r]? = some (a, [x1, x2, x3, x4, x5, x6, x7, x8]))
    (H : ∀ (t1 t2 t3 t4 t5 t6 t7 t8 : List Tok) (v1 v2 v3 v4 v5 v6 v7 v8 : Val) (v : Val), FToks T (t1 ++ (t2 ++ (t3 ++ (t4 ++ (t5 ++ (t6 ++ (t7 ++ (t8)))))))) → QSym T x1 t1 v1 → QSym T x2 t2 v2 → QSym T x3 t3 v3 → QSym T x4 t4 v4 → QSym T x5 t5 v5 → QSym T x6 t6 v6 → QSym T x7 t7 v7 → QSym T x8 t8 v8 → sem (r + 1) [v1, v2, v3, v4, v5, v6, v7, v8] = some v → Q T a (t1 ++ (t2 ++ (t3 ++ (t4 ++ (t5 ++ (t6 ++ (t7 ++ (t8)))))))) v) : QStep T r := by
  intro a' rhs' hp' ts vs v hT hl hs
  rw [hp] at hp'
  cases hp'
  obtain ⟨t1, s1, v1, w1, rfl, rfl, h1, hl⟩ := hl
  obtain ⟨t2, s2, v2, w2, rfl, rfl, h2, hl⟩ := hl
  obtain ⟨t3, s3, v3, w3, rfl, rfl, h3, hl⟩ := hl
  obtain ⟨t4, s4, v4, w4, rfl, rfl, h4, hl⟩ := hl
  obtain ⟨t5, s5, v5, w5, rfl, rfl, h5, hl⟩ := hl
  obtain ⟨t6, s6, v6, w6, rfl, rfl, h6, hl⟩ := hl
  obtain ⟨t7, s7, v7, w7, rfl, rfl, h7, hl⟩ := hl
  obtain ⟨t8, s8, v8, w8, rfl, rfl, h8, hl⟩ := hl
  obtain ⟨rfl, rfl⟩ := hl
  simp only [List.append_nil] at hT ⊢
  exact H _ _ _ _ _ _ _ _ _ _ _ _ _ _ _ _ _ hT h1 h2 h3 h4 h5 h6 h7 h8 hs

end Verif.Printed
