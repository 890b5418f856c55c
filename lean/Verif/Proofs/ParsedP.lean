import Verif.Proofs.LexGood
import Verif.Proofs.GenS
import Verif.Proofs.PrintS
/-
What the parser builds (without comments) satisfies `OkStmt`.
-/
namespace Verif.Round
open Verif Verif.Syntax Verif.Lexer Verif.Print Verif.Parser Verif.Grammar Verif.Props.Grammar

/-- what is known about the tokens -/
structure Toks (ts : List Tok) : Prop where
  good : ∀ t ∈ ts, TokGood t
  pos : ∀ t ∈ ts, PosOK t
  nc : ∀ t ∈ ts, t.kind ≠ K.comment
  block : ∀ a t u b, ts = a ++ t :: u :: b → t.kind = K.indent → u.kind ≠ K.newline ∧ u.kind ≠ K.comment ∧ u.kind ≠ K.unindent

theorem Toks.left {a b : List Tok} (h : Toks (a ++ b)) : Toks a :=
  ⟨fun t ht => h.good t (List.mem_append_left _ ht), fun t ht => h.pos t (List.mem_append_left _ ht), fun t ht => h.nc t (List.mem_append_left _ ht),
   fun x t u y e => h.block x t u (y ++ b) (by rw [e]; simp)⟩

theorem Toks.right {a b : List Tok} (h : Toks (a ++ b)) : Toks b :=
  ⟨fun t ht => h.good t (List.mem_append_right _ ht), fun t ht => h.pos t (List.mem_append_right _ ht), fun t ht => h.nc t (List.mem_append_right _ ht),
   fun x t u y e => h.block (a ++ x) t u y (by rw [e]; simp)⟩

/-- the operand of a unary operator -/
def operand : Expr → Expr
  | .unary _ _ _ x => x
  | _ => .nil

/-- the last clause ends with a `lambda` -/
def openLast : List Expr → Bool
  | [] => false
  | [x] => openClause x
  | _ :: l => openLast l

def isFor : Expr → Bool
  | .forClause .. => true
  | _ => false

structure PTest (p : Nat) (o : Bool) (e : Expr) : Prop where
  ok : Ok e
  cond : 3 ≤ p → isCond e = false
  op : o = false → openEnd e = false
  bin : p = 13 → isBin e = false
  inner : isBin (operand e) = false
  innerOpen : o = false → isLambda (operand e) = false

structure PClauses (l : List Expr) : Prop where
  ok : ∀ a ∈ l, OkClause a
  first : forFirst l = true
  apart : clausesApart l = true

/-- what is true of the values of a class -/
def P : FNT → List Tok → Val → Prop
  | .test p o, _, v => PTest p o v.expr
  | .any p, _, v => Ok v.expr ∧ (3 ≤ p → isCond v.expr = false)
  | .primary, _, v => Ok v.expr ∧ isPrimary v.expr = true ∧ isInt v.expr = false
  | .primaryInt, _, v => Ok v.expr ∧ isPrimary v.expr = true
  | .primaryExpr, _, v => Ok v.expr ∧ isPrimary v.expr = true
  | .number, _, v => Ok v.expr ∧ isPrimary v.expr = true ∧ isInt v.expr = false
  | .numberInt, _, v => Ok v.expr ∧ isPrimary v.expr = true
  | .string, _, v => ∃ n, v.expr = .string n ∧ n.comments = {} ∧ Props.Quote.LexedToken n.token
  | .ident, _, v => ∃ n, v.expr = .ident n ∧ n.comments = {} ∧ Name n.name
  | .argumentsOpt, _, v => ∀ a ∈ v.exprs, OkArg a
  | .arguments, _, v => ∀ a ∈ v.exprs, OkArg a
  | .argument, _, v => OkArg v.expr
  | .loadArguments, _, v => v.loadargs ≠ [] ∧ ∀ q ∈ v.loadargs, q.1.comments = {} ∧ q.2.comments = {} ∧ (q.1.name = q.2.name ∨ Name q.2.name)
  | .loadArgument, _, v => v.loadargs ≠ [] ∧ ∀ q ∈ v.loadargs, q.1.comments = {} ∧ q.2.comments = {} ∧ (q.1.name = q.2.name ∨ Name q.2.name)
  | .parametersOpt, _, v => ∀ a ∈ v.exprs, OkParam false a
  | .parameters, _, v => ∀ a ∈ v.exprs, OkParam false a
  | .parameter, _, v => OkParam false v.expr
  | .parametersTypeOpt, _, v => ∀ a ∈ v.exprs, OkParam true a
  | .parametersType, _, v => ∀ a ∈ v.exprs, OkParam true a
  | .parameterType, _, v => OkParam true v.expr
  | .expr, _, v => OkExpr v.expr
  | .lambdaBody, _, v => Ok v.expr
  | .exprOpt, _, v => v.expr.isNil = false → OkExpr v.expr
  | .tests, _, v => v.exprs ≠ [] ∧ ∀ a ∈ v.exprs, Ok a
  | .testOpt, _, v => v.expr.isNil = false → Ok v.expr
  | .testsOpt, _, v => ∀ a ∈ v.exprs, Ok a
  | .keyvalue, _, v => OkKV v.expr
  | .keyvaluesNoComma, _, v => ∀ a ∈ v.exprs, OkKV a
  | .keyvalues, _, v => ∀ a ∈ v.exprs, OkKV a
  | .loopVars, _, v => OkVars v.expr
  | .forClause o, _, v => OkClause v.expr ∧ isFor v.expr = true ∧ (o = false → openClause v.expr = false)
  | .clauses o, _, v => PClauses v.exprs ∧ (o = false → openLast v.exprs = false)
  | .forClausesWithIfClausesOpt, _, v => PClauses v.exprs
  | .defHeader, _, v => ∃ p name ps b cp fc fm ty, v.expr = .defS {} p name ps b cp fc fm ty ∧ Name name ∧ (∀ a ∈ ps, OkParam true a) ∧ (ty.isNil = false → Ok ty)
  | .defHeaderTypeOpt, _, v => ∃ p name ps b cp fc fm ty, v.expr = .defS {} p name ps b cp fc fm ty ∧ Name name ∧ (∀ a ∈ ps, OkParam true a) ∧ (ty.isNil = false → Ok ty)
  | .blockStmt _, _, v => OkStmt v.expr
  | .ifElseBlock _, _, v => OkStmt v.expr
  | .ifChain _, _, v => OkStmt v.expr
  | .anyIfChain, _, v => OkStmt v.expr
  | .smallStmt, _, v => OkStmt v.expr
  | .simpleStmt, _, v => v.exprs ≠ [] ∧ ∀ s ∈ v.exprs, OkStmt s
  | .stmt _, _, v => v.exprs ≠ [] ∧ ∀ s ∈ v.exprs, OkStmt s
  | .suite _, _, v => v.exprs ≠ [] ∧ ∀ s ∈ v.exprs, OkStmt s
  | .stmts _, ts, v => (v.exprs = [] → ∀ t ∈ ts, t.kind = K.newline) ∧ ∀ s ∈ v.exprs, OkStmt s
  | .anyStmts, ts, v => (v.exprs = [] → ∀ t ∈ ts, t.kind = K.newline) ∧ ∀ s ∈ v.exprs, OkStmt s
  | .smallStmtsContinuation, _, v => ∀ s ∈ v.exprs, OkStmt s
  | .comments, _, v => v.exprs = []
  | .file, _, v => ∀ s ∈ v.exprs, OkStmt s
  | _, _, _ => True

/-- the same for a symbol -/
def PSym : FSym → List Tok → Val → Prop
  | .t k, ts, v => ∃ t, ts = [t] ∧ t.kind = k ∧ v = Val.ofTok t ∧ TokGood t ∧ PosOK t ∧ t.kind ≠ K.comment
  | .n a, ts, v => P a ts v ∧ freeV v

/-- and for a right-hand side -/
def PRhs : List FSym → List Tok → List Val → Prop
  | [], ts, vs => ts = [] ∧ vs = []
  | x :: xs, ts, vs => ∃ ts1 ts2 v vs', ts = ts1 ++ ts2 ∧ vs = v :: vs' ∧ PSym x ts1 v ∧ PRhs xs ts2 vs'

/-- the value of a production -/
def semF (r : Nat) (vs : List Val) (v : Val) : Prop := if r = 0 then vs = [v] else sem r vs = some v

/-- a production preserves the properties -/
def Step (q : FNT × Nat × List FSym) : Prop := ∀ ts vs v, Toks ts → PRhs q.2.2 ts vs → semF q.2.1 vs v → P q.1 ts v

theorem parsed_induct (H : ∀ q ∈ fine, Step q) {x ts v} (h : FDeriv x ts v) : Toks ts → PSym x ts v := by
  have hfree := @free_deriv
  refine FDeriv.rec (motive_1 := fun x ts v _ => Toks ts → PSym x ts v) (motive_2 := fun xs ts vs _ => Toks ts → PRhs xs ts vs) ?_ ?_ ?_ ?_ ?_ h
  · intro t hT
    exact ⟨t, rfl, rfl, rfl, hT.good t (by simp), hT.pos t (by simp), hT.nc t (by simp)⟩
  · intro a r rhs ts vs v hm hr hd hs ih hT
    refine ⟨H _ hm ts vs v hT (ih hT) ?_, hfree (.prod a r rhs ts vs v hm hr hd hs) hT.nc⟩
    show semF r vs v
    unfold semF
    rw [if_neg hr]; exact hs
  · intro a b ts v hm hd ih hT
    refine ⟨H _ hm ts [v] v hT ⟨ts, [], v, [], by simp, rfl, ih hT, rfl, rfl⟩ ?_, hfree (.incl a b ts v hm hd) hT.nc⟩
    rfl
  · intro _; exact ⟨rfl, rfl⟩
  · intro x xs ts ts' v vs _ _ h1 h2 hT
    exact ⟨ts, ts', v, vs, rfl, rfl, h1 hT.left, h2 hT.right⟩

/-! One introduction rule per length of the right-hand side. -/

theorem st0 {a : FNT} {r : Nat}
    (H : ∀ v, Toks ([]) → semF r [] v → P a ([]) v) : Step (a, r, []) := by
  intro ts vs v hT hl hs
  dsimp only at hl hs ⊢
  obtain ⟨rfl, rfl⟩ := hl
  exact H _ hT  hs

theorem st1 {a : FNT} {r : Nat} {x1 : FSym}
    (H : ∀ t1 v1 v, Toks (t1) → PSym x1 t1 v1 → semF r [v1] v → P a (t1) v) : Step (a, r, [x1]) := by
  intro ts vs v hT hl hs
  dsimp only at hl hs ⊢
  obtain ⟨t1, s1, v1, w1, rfl, rfl, h1, hl⟩ := hl
  obtain ⟨rfl, rfl⟩ := hl
  simp only [List.append_nil] at hT ⊢
  exact H _ _ _ hT h1 hs

theorem st2 {a : FNT} {r : Nat} {x1 x2 : FSym}
    (H : ∀ t1 t2 v1 v2 v, Toks (t1 ++ (t2)) → PSym x1 t1 v1 → PSym x2 t2 v2 → semF r [v1, v2] v → P a (t1 ++ (t2)) v) : Step (a, r, [x1, x2]) := by
  intro ts vs v hT hl hs
  dsimp only at hl hs ⊢
  obtain ⟨t1, s1, v1, w1, rfl, rfl, h1, hl⟩ := hl
  obtain ⟨t2, s2, v2, w2, rfl, rfl, h2, hl⟩ := hl
  obtain ⟨rfl, rfl⟩ := hl
  simp only [List.append_nil] at hT ⊢
  exact H _ _ _ _ _ hT h1 h2 hs

theorem st3 {a : FNT} {r : Nat} {x1 x2 x3 : FSym}
    (H : ∀ t1 t2 t3 v1 v2 v3 v, Toks (t1 ++ (t2 ++ (t3))) → PSym x1 t1 v1 → PSym x2 t2 v2 → PSym x3 t3 v3 → semF r [v1, v2, v3] v → P a (t1 ++ (t2 ++ (t3))) v) : Step (a, r, [x1, x2, x3]) := by
  intro ts vs v hT hl hs
  dsimp only at hl hs ⊢
  obtain ⟨t1, s1, v1, w1, rfl, rfl, h1, hl⟩ := hl
  obtain ⟨t2, s2, v2, w2, rfl, rfl, h2, hl⟩ := hl
  obtain ⟨t3, s3, v3, w3, rfl, rfl, h3, hl⟩ := hl
  obtain ⟨rfl, rfl⟩ := hl
  simp only [List.append_nil] at hT ⊢
  exact H _ _ _ _ _ _ _ hT h1 h2 h3 hs

theorem st4 {a : FNT} {r : Nat} {x1 x2 x3 x4 : FSym}
    (H : ∀ t1 t2 t3 t4 v1 v2 v3 v4 v, Toks (t1 ++ (t2 ++ (t3 ++ (t4)))) → PSym x1 t1 v1 → PSym x2 t2 v2 → PSym x3 t3 v3 → PSym x4 t4 v4 → semF r [v1, v2, v3, v4] v → P a (t1 ++ (t2 ++ (t3 ++ (t4)))) v) : Step (a, r, [x1, x2, x3, x4]) := by
  intro ts vs v hT hl hs
  dsimp only at hl hs ⊢
  obtain ⟨t1, s1, v1, w1, rfl, rfl, h1, hl⟩ := hl
  obtain ⟨t2, s2, v2, w2, rfl, rfl, h2, hl⟩ := hl
  obtain ⟨t3, s3, v3, w3, rfl, rfl, h3, hl⟩ := hl
  obtain ⟨t4, s4, v4, w4, rfl, rfl, h4, hl⟩ := hl
  obtain ⟨rfl, rfl⟩ := hl
  simp only [List.append_nil] at hT ⊢
  exact H _ _ _ _ _ _ _ _ _ hT h1 h2 h3 h4 hs

theorem st5 {a : FNT} {r : Nat} {x1 x2 x3 x4 x5 : FSym}
    (H : ∀ t1 t2 t3 t4 t5 v1 v2 v3 v4 v5 v, Toks (t1 ++ (t2 ++ (t3 ++ (t4 ++ (t5))))) → PSym x1 t1 v1 → PSym x2 t2 v2 → PSym x3 t3 v3 → PSym x4 t4 v4 → PSym x5 t5 v5 → semF r [v1, v2, v3, v4, v5] v → P a (t1 ++ (t2 ++ (t3 ++ (t4 ++ (t5))))) v) : Step (a, r, [x1, x2, x3, x4, x5]) := by
  intro ts vs v hT hl hs
  dsimp only at hl hs ⊢
  obtain ⟨t1, s1, v1, w1, rfl, rfl, h1, hl⟩ := hl
  obtain ⟨t2, s2, v2, w2, rfl, rfl, h2, hl⟩ := hl
  obtain ⟨t3, s3, v3, w3, rfl, rfl, h3, hl⟩ := hl
  obtain ⟨t4, s4, v4, w4, rfl, rfl, h4, hl⟩ := hl
  obtain ⟨t5, s5, v5, w5, rfl, rfl, h5, hl⟩ := hl
  obtain ⟨rfl, rfl⟩ := hl
  simp only [List.append_nil] at hT ⊢
  exact H _ _ _ _ _ _ _ _ _ _ _ hT h1 h2 h3 h4 h5 hs

theorem st6 {a : FNT} {r : Nat} {x1 x2 x3 x4 x5 x6 : FSym}
    (H : ∀ t1 t2 t3 t4 t5 t6 v1 v2 v3 v4 v5 v6 v, Toks (t1 ++ (t2 ++ (t3 ++ (t4 ++ (t5 ++ (t6)))))) → PSym x1 t1 v1 → PSym x2 t2 v2 → PSym x3 t3 v3 → PSym x4 t4 v4 → PSym x5 t5 v5 → PSym x6 t6 v6 → semF r [v1, v2, v3, v4, v5, v6] v → P a (t1 ++ (t2 ++ (t3 ++ (t4 ++ (t5 ++ (t6)))))) v) : Step (a, r, [x1, x2, x3, x4, x5, x6]) := by
  intro ts vs v hT hl hs
  dsimp only at hl hs ⊢
  obtain ⟨t1, s1, v1, w1, rfl, rfl, h1, hl⟩ := hl
  obtain ⟨t2, s2, v2, w2, rfl, rfl, h2, hl⟩ := hl
  obtain ⟨t3, s3, v3, w3, rfl, rfl, h3, hl⟩ := hl
  obtain ⟨t4, s4, v4, w4, rfl, rfl, h4, hl⟩ := hl
  obtain ⟨t5, s5, v5, w5, rfl, rfl, h5, hl⟩ := hl
  obtain ⟨t6, s6, v6, w6, rfl, rfl, h6, hl⟩ := hl
  obtain ⟨rfl, rfl⟩ := hl
  simp only [List.append_nil] at hT ⊢
  exact H _ _ _ _ _ _ _ _ _ _ _ _ _ hT h1 h2 h3 h4 h5 h6 hs

theorem st8 {a : FNT} {r : Nat} {x1 x2 x3 x4 x5 x6 x7 x8 : FSym}
    (H : ∀ t1 t2 t3 t4 t5 t6 t7 t8 v1 v2 v3 v4 v5 v6 v7 v8 v, Toks (t1 ++ (t2 ++ (t3 ++ (t4 ++ (t5 ++ (t6 ++ (t7 ++ (t8)))))))) → PSym x1 t1 v1 → PSym x2 t2 v2 → PSym x3 t3 v3 → PSym x4 t4 v4 → PSym x5 t5 v5 → PSym x6 t6 v6 → PSym x7 t7 v7 → PSym x8 t8 v8 → semF r [v1, v2, v3, v4, v5, v6, v7, v8] v → P a (t1 ++ (t2 ++ (t3 ++ (t4 ++ (t5 ++ (t6 ++ (t7 ++ (t8)))))))) v) : Step (a, r, [x1, x2, x3, x4, x5, x6, x7, x8]) := by
  intro ts vs v hT hl hs
  dsimp only at hl hs ⊢
  obtain ⟨t1, s1, v1, w1, rfl, rfl, h1, hl⟩ := hl
  obtain ⟨t2, s2, v2, w2, rfl, rfl, h2, hl⟩ := hl
  obtain ⟨t3, s3, v3, w3, rfl, rfl, h3, hl⟩ := hl
  obtain ⟨t4, s4, v4, w4, rfl, rfl, h4, hl⟩ := hl
  obtain ⟨t5, s5, v5, w5, rfl, rfl, h5, hl⟩ := hl
  obtain ⟨t6, s6, v6, w6, rfl, rfl, h6, hl⟩ := hl
  obtain ⟨t7, s7, v7, w7, rfl, rfl, h7, hl⟩ := hl
  obtain ⟨t8, s8, v8, w8, rfl, rfl, h8, hl⟩ := hl
  obtain ⟨rfl, rfl⟩ := hl
  simp only [List.append_nil] at hT ⊢
  exact H _ _ _ _ _ _ _ _ _ _ _ _ _ _ _ _ _ hT h1 h2 h3 h4 h5 h6 h7 h8 hs

end Verif.Round
