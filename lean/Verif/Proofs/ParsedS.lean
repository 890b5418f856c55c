import Verif.Proofs.ParsedE
/-
The productions for statements build trees that satisfy `OkStmt`.
-/
namespace Verif.Round
open Verif Verif.Syntax Verif.Lexer Verif.Print Verif.Parser Verif.Grammar Verif.Props.Grammar

theorem st1f : Step (.file, 1, [.n .anyStmts, .t K.eof]) := by
  refine st2 fun t1 t2 v1 v2 v _ h1 h2 hs => ?_
  cases hs; exact h1.1.2

theorem st2s : Step (.suite false, 2, [.t K.newline, .n .comments, .t K.indent, .n .anyStmts, .t K.unindent]) := by
  refine st5 fun t1 t2 t3 t4 t5 v1 v2 v3 v4 v5 v hT h1 h2 h3 h4 h5 h => ?_
  have h : mkSuite v1 v2 v4 = some v := h
  have h2 : v2.exprs = [] := h2.1
  unfold mkSuite at h
  rw [h2] at h
  cases h
  obtain ⟨h41, h42⟩ := h4.1
  refine ⟨fun he => ?_, h42⟩
  have he : v4.exprs = [] := he
  have h41 := h41 he
  obtain ⟨t3, rfl, k3, _⟩ := h3
  obtain ⟨t5, rfl, k5, _⟩ := h5
  cases t4 with
  | nil =>
    have := hT.block (t1 ++ t2) t3 t5 [] (by simp) k3
    exact this.2.2 k5
  | cons u t4 =>
    have := hT.block (t1 ++ t2) t3 u (t4 ++ [t5]) (by simp) k3
    exact this.1 (h41 u (by simp))

theorem st3s : Step (.suite true, 3, [.n .simpleStmt, .n .linebreaksOpt]) := by
  refine st2 fun t1 t2 v1 v2 v _ h1 h2 hs => ?_
  cases hs; exact h1.1

theorem st6s : Step (.comments, 6, []) := by
  refine st0 fun v _ hs => ?_
  cases hs; rfl

theorem st7s : Step (.comments, 7, [.n .comments, .t K.comment, .t K.newline]) := by
  refine st3 fun t1 t2 t3 v1 v2 v3 v _ h1 h2 h3 h => ?_
  obtain ⟨t, _, hk, _, _, _, hc⟩ := h2
  exact absurd hk hc

theorem st8s : Step (.comments, 8, [.n .comments, .t K.newline]) := by
  refine st2 fun t1 t2 v1 v2 v _ h1 h2 hs => ?_
  cases hs; exact h1.1

theorem st9s : Step (.stmts false, 9, []) := by
  refine st0 fun v _ hs => ?_
  cases hs; exact ⟨fun _ => forall_nil, forall_nil⟩

theorem set_id {x : Expr} (c : Comments) (h : x.comments = c) : x.setComments c = x := by
  subst h; cases x <;> rfl

theorem setBefore_id {x : Expr} (h : x.comments = {}) : setBefore [] x = x := set_id _ (by rw [h])
theorem setAfter_id {x : Expr} (h : x.comments = {}) : setAfter [] x = x := set_id _ (by rw [h])

theorem modLast_id {f : Expr → Expr} : ∀ (l : List Expr), (∀ x ∈ l, f x = x) → modLast f l = l := by
  intro l
  induction l with
  | nil => intro _; rfl
  | cons x l ih =>
    intro h
    cases l with
    | nil => show [f x] = [x]; rw [h x (by simp)]
    | cons y l =>
      show x :: modLast f (y :: l) = _
      rw [ih (fun z hz => h z (List.mem_cons_of_mem _ hz))]

theorem modHead_id {f : Expr → Expr} {l : List Expr} (h : ∀ x ∈ l, f x = x) : modHead f l = l := by
  cases l with
  | nil => rfl
  | cons x l => show f x :: l = _; rw [h x (by simp)]

theorem addStmt_exprs {v1 v2 : Val} (h1 : ∀ s ∈ v1.exprs, OkStmt s) (h2 : ∀ s ∈ v2.exprs, OkStmt s) : (addStmt v1 v2).exprs = v1.exprs ++ v2.exprs := by
  unfold addStmt
  by_cases hl : v1.last = true
  · rw [if_pos hl]
    cases hg : v1.exprs.getLast? with
    | none => rfl
    | some x =>
      dsimp only
      have hx := h1 x (List.mem_of_getLast? hg)
      rw [hx.noBlock, hx.comments]
      show modLast (setAfter []) v1.exprs ++ modHead (setBefore []) v2.exprs = _
      rw [modLast_id _ (fun s hs => setAfter_id (h1 s hs).comments), modHead_id (fun s hs => setBefore_id (h2 s hs).comments)]
  · rw [if_neg hl]

theorem st10s {l : Bool} : Step (.stmts l, 10, [.n .anyStmts, .n (.stmt l)]) := by
  refine st2 fun t1 t2 v1 v2 v _ h1 h2 hs => ?_
  cases hs
  obtain ⟨h11, h12⟩ := h1.1
  obtain ⟨h21, h22⟩ := h2.1
  show ((addStmt v1 v2).exprs = [] → _) ∧ ∀ s ∈ (addStmt v1 v2).exprs, OkStmt s
  rw [addStmt_exprs h12 h22]
  refine ⟨fun e => absurd (List.append_eq_nil_iff.1 e).2 h21, fun s hs => ?_⟩
  rcases List.mem_append.1 hs with hs | hs
  · exact h12 s hs
  · exact h22 s hs

theorem st11s : Step (.stmts false, 11, [.n (.stmts false), .t K.newline]) := by
  refine st2 fun t1 t2 v1 v2 v _ h1 h2 hs => ?_
  cases hs
  obtain ⟨h11, h12⟩ := h1.1
  refine ⟨fun e t ht => ?_, h12⟩
  obtain ⟨t2, rfl, k2, _⟩ := h2
  rcases List.mem_append.1 ht with ht | ht
  · exact h11 e t ht
  · rw [List.mem_singleton.1 ht]; exact k2

theorem st12s : Step (.stmts false, 12, [.n .anyStmts, .t K.comment, .t K.newline]) := by
  refine st3 fun t1 t2 t3 v1 v2 v3 v _ h1 h2 h3 h => ?_
  obtain ⟨t, _, hk, _, _, _, hc⟩ := h2
  exact absurd hk hc

theorem st13s : Step (.stmt false, 13, [.n .simpleStmt]) := by
  refine st1 fun t1 v1 v _ h1 hs => ?_
  cases hs; exact h1.1

theorem st14s {l : Bool} : Step (.stmt l, 14, [.n (.blockStmt l)]) := by
  refine st1 fun t1 v1 v _ h1 hs => ?_
  have hs : (let (s, cbs) := extractTrailing (chainLength v1.expr) v1.expr
    some { v1 with exprs := s :: cbs, last := cbs.isEmpty || v1.last }) = some v := hs
  rw [extractTrailing_free _ _ h1.2.1] at hs
  cases hs
  exact ⟨by simp, forall_one h1.1⟩

theorem st15s : Step (.defHeader, 15, [.t K.def_, .t K.ident, .t (ch '('), .n .parametersTypeOpt, .t (ch ')')]) := by
  refine st5 fun t1 t2 t3 t4 t5 v1 v2 v3 v4 v5 v _ h1 h2 h3 h4 h5 h => ?_
  cases h
  exact ⟨_, _, _, _, _, _, _, _, rfl, h2.name, h4.1, (fun h => nomatch h)⟩

theorem st16s : Step (.defHeaderTypeOpt, 16, [.n .defHeader]) := by
  refine st1 fun t1 v1 v _ h1 hs => ?_
  cases hs; exact h1.1

theorem st17s : Step (.defHeaderTypeOpt, 17, [.n .defHeader, .t K.arrow, .n (.any 2)]) := by
  refine st3 fun t1 t2 t3 v1 v2 v3 v _ h1 h2 h3 h => ?_
  obtain ⟨p, name, ps, b, cp, fc, fm, ty, e, a1, a2, a3⟩ := h1.1
  obtain ⟨c, sp, n, ps', b', cp', fc', fm', t, e', rfl⟩ := sem17 (h : sem 17 [v1, v2, v3] = some v)
  rw [e] at e'
  cases e'
  exact ⟨_, _, _, _, _, _, _, _, rfl, a1, a2, fun _ => h3.1.1⟩

theorem st18s {l : Bool} : Step (.blockStmt l, 18, [.n .defHeaderTypeOpt, .t (ch ':'), .n (.suite l)]) := by
  refine st3 fun t1 t2 t3 v1 v2 v3 v _ h1 h2 h3 h => ?_
  obtain ⟨p, name, ps, b, cp, fc, fm, ty, e, a1, a2, a3⟩ := h1.1
  obtain ⟨c, sp, n, ps', b', cp', fc', fm', t, e', rfl⟩ := sem18 (h : sem 18 [v1, v2, v3] = some v)
  rw [e] at e'
  cases e'
  exact .def_ _ _ _ _ _ _ _ _ a1 a2 a3 h3.1.1 h3.1.2

theorem st19s {l : Bool} : Step (.blockStmt l, 19, [.t K.for_, .n .loopVars, .t K.in_, .n .expr, .t (ch ':'), .n (.suite l)]) := by
  refine st6 fun t1 t2 t3 t4 t5 t6 v1 v2 v3 v4 v5 v6 v _ h1 h2 h3 h4 h5 h6 h => ?_
  cases h
  exact .for_ _ _ _ _ h2.1 h4.1 h6.1.1 h6.1.2

theorem st20s {l : Bool} : Step (.blockStmt l, 20, [.n (.ifElseBlock l)]) := by
  refine st1 fun t1 v1 v _ h1 hs => ?_
  cases hs; exact h1.1

theorem st21s {l : Bool} : Step (.ifChain l, 21, [.t K.if_, .n .expr, .t (ch ':'), .n (.suite l)]) := by
  refine st4 fun t1 t2 t3 t4 v1 v2 v3 v4 v _ h1 h2 h3 h4 h => ?_
  cases h
  exact .if_ _ _ _ _ _ rfl h2.1 h4.1.1 h4.1.2 forall_nil

theorem setElse_ok : ∀ (f : Nat) (p : Pos) (new : List Expr) (e e' : Expr), (∀ s ∈ new, OkStmt s) → OkStmt e → setElse f p new e = some e' → OkStmt e' := by
  intro f
  induction f with
  | zero => intro p new e e' _ _ h; cases h
  | succ f ih =>
    intro p new e e' hn he h
    cases he with
    | if_ ip co t ep fa h1 h2 h3 h4 h5 =>
      unfold setElse at h
      cases fa with
      | nil => cases h; exact .if_ _ _ _ _ _ rfl h2 h3 h4 hn
      | cons x l =>
        cases l with
        | nil =>
          dsimp only at h
          cases hx : setElse f p new x with
          | none => rw [hx] at h; cases h
          | some x' =>
            rw [hx] at h
            cases h
            exact .if_ _ _ _ _ _ h1 h2 h3 h4 (forall_one (ih p new x x' hn (h5 x (by simp)) hx))
        | cons y l => cases h; exact .if_ _ _ _ _ _ rfl h2 h3 h4 hn
    | expr _ hx =>
      cases hx with
      | one _ hx => cases hx <;> cases h
      | tuple => cases h
    | _ => cases h

theorem st22s {l : Bool} : Step (.ifChain l, 22, [.n .anyIfChain, .n .elif_, .n .expr, .t (ch ':'), .n (.suite l)]) := by
  refine st5 fun t1 t2 t3 t4 t5 v1 v2 v3 v4 v5 v _ h1 h2 h3 h4 h5 h => ?_
  have h : (setElse (chainLength v1.expr) v2.pos [.ifS {} v2.pos v3.expr v5.exprs {} []] v1.expr).map (fun e => { v1 with expr := e, last := v5.last }) = some v := h
  rw [Option.map_eq_some_iff] at h
  obtain ⟨e, he, rfl⟩ := h
  exact setElse_ok _ _ _ _ _ (forall_one (.if_ _ _ _ _ _ rfl h3.1 h5.1.1 h5.1.2 forall_nil)) h1.1 he

theorem st23s {l : Bool} : Step (.ifElseBlock l, 23, [.n (.ifChain l)]) := by
  refine st1 fun t1 v1 v _ h1 hs => ?_
  cases hs; exact h1.1

theorem st24s {l : Bool} : Step (.ifElseBlock l, 24, [.n .anyIfChain, .t K.else_, .t (ch ':'), .n (.suite l)]) := by
  refine st4 fun t1 t2 t3 t4 v1 v2 v3 v4 v _ h1 h2 h3 h4 h => ?_
  have h : (setElse (chainLength v1.expr) v2.pos v4.exprs v1.expr).map (fun e => { v1 with expr := e, last := v4.last }) = some v := h
  rw [Option.map_eq_some_iff] at h
  obtain ⟨e, he, rfl⟩ := h
  exact setElse_ok _ _ _ _ _ h4.1.2 h1.1 he

theorem st27s : Step (.simpleStmt, 27, [.n .smallStmt, .n .smallStmtsContinuation, .n .semiOpt, .t K.newline]) := by
  refine st4 fun t1 t2 t3 t4 v1 v2 v3 v4 v _ h1 h2 h3 h4 h => ?_
  cases h
  refine ⟨by simp, fun s hs => ?_⟩
  rcases List.mem_cons.1 hs with rfl | hs
  · exact h1.1
  · exact h2.1 s hs

theorem st28s : Step (.smallStmtsContinuation, 28, []) := by
  refine st0 fun v _ hs => ?_
  cases hs; exact forall_nil

theorem st29s : Step (.smallStmtsContinuation, 29, [.n .smallStmtsContinuation, .t (ch ';'), .n .smallStmt]) := by
  refine st3 fun t1 t2 t3 v1 v2 v3 v _ h1 h2 h3 h => ?_
  cases h; exact forall_snoc h1.1 h3.1

theorem st30s : Step (.smallStmt, 30, [.n .expr]) := by
  refine st1 fun t1 v1 v _ h1 hs => ?_
  cases hs; exact .expr _ h1.1

theorem st31s : Step (.smallStmt, 31, [.t K.return_, .n .expr]) := by
  refine st2 fun t1 t2 v1 v2 v _ h1 h2 hs => ?_
  cases hs; exact .return_ _ _ fun _ => h2.1

theorem st32s : Step (.smallStmt, 32, [.t K.return_]) := by
  refine st1 fun t1 v1 v _ h1 hs => ?_
  cases hs; exact .return_ _ _ fun h => nomatch h

theorem st33s : Step (.smallStmt, 33, [.n .expr, .t (ch '='), .n .expr]) := by
  refine st3 fun t1 t2 t3 v1 v2 v3 v _ h1 h2 h3 h => ?_
  cases h
  show OkStmt (mkBinary v1.expr v2.pos v2.tok v3.expr)
  rw [h2.text (x := b!"=") (by decide), mkAssign_eq (by decide)]
  exact .assign _ _ _ _ _ (by decide) h1.1 h3.1

theorem st34s : Step (.smallStmt, 34, [.n .expr, .t K.augm, .n .expr]) := by
  refine st3 fun t1 t2 t3 v1 v2 v3 v _ h1 h2 h3 h => ?_
  cases h
  show OkStmt (mkBinary v1.expr v2.pos v2.tok v3.expr)
  have hop : (v2.tok ∈ assignOps ∧ isAssignOp v2.tok = true) ∨ (v2.tok ∈ augOps ∧ isAssignOp v2.tok = false) := by
    obtain ⟨t, rfl, hk, rfl, hg, _⟩ := h2
    have hf := hg.fixed (by rw [hk]; decide) (by rw [hk]; decide) (by rw [hk]; decide) (by rw [hk]; decide)
    have key : ∀ q ∈ Props.Lexer.fixedTokens, q.1 = K.augm → (q.2 ∈ assignOps ∧ isAssignOp q.2 = true) ∨ (q.2 ∈ augOps ∧ isAssignOp q.2 = false) := by decide
    exact key _ hf hk
  rcases hop with ⟨h, h'⟩ | ⟨h, h'⟩
  · rw [mkAssign_eq h']; exact .assign _ _ _ _ _ h h1.1 h3.1
  · rw [mkBinary_eq h']; exact .aug _ _ _ _ _ h h1.1 h3.1

theorem st_branch {r : Nat} {k : Kind} (x : Bytes) (hk : isText k x) (hx : x ∈ [b!"pass", b!"break", b!"continue"]) (hr : r ≠ 0)
    (hs : ∀ v1, sem r [v1] = some { v1 with expr := .branch {} v1.tok v1.pos }) : Step (.smallStmt, r, [.t k]) := by
  refine st1 fun t1 v1 v _ h1 h => ?_
  unfold semF at h
  rw [if_neg hr, hs] at h
  cases h
  show OkStmt (.branch {} v1.tok v1.pos)
  rw [h1.text hk]
  exact .branch _ _ hx

theorem st_stmts {l : Bool} : Step (.anyStmts, 0, [.n (.stmts l)]) := by
  refine st1 fun t1 v1 v _ h1 hs => ?_
  cases hs; exact h1.1

theorem st_chain {l : Bool} : Step (.anyIfChain, 0, [.n (.ifChain l)]) := by
  refine st1 fun t1 v1 v _ h1 hs => ?_
  cases hs; exact h1.1

theorem st_true {a : FNT} {r : Nat} {rhs : List FSym} (h : ∀ ts v, P a ts v = True) : Step (a, r, rhs) := by
  intro ts vs v _ _ _
  show P a ts v
  rw [h]; trivial

end Verif.Round
