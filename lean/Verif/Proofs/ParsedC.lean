import Verif.Proofs.Strip
import Verif.Proofs.ParsedT
/-
What the parser builds from a file with comments (before suffix and line comments are handed out).
-/
namespace Verif.Round
open Verif Verif.Syntax Verif.Lexer Verif.Print Verif.Parser Verif.Grammar Verif.Props.Grammar

/-- statements as the parser builds them: comments on statements only -/
inductive OkP : Expr → Prop
  | simple (e) : isBlock e = false → isCommentBlock e = false → OkStmt (e.setComments {}) → OkP e
  | block (c p) : OkP (.commentBlock c p)
  | def_ (c p name ps body cp fc fm ty) : Name name → (∀ a ∈ ps, OkParam true a) → (ty.isNil = false → Ok ty) → stmtsOf body ≠ [] →
      (∀ s ∈ body, OkP s) → OkP (.defS c p name ps body cp fc fm ty)
  | for_ (c p v x body) : OkVars v → OkExpr x → stmtsOf body ≠ [] → (∀ s ∈ body, OkP s) → OkP (.forS c p v x body)
  | if_ (c p x body ep els) : OkExpr x → stmtsOf body ≠ [] → (∀ s ∈ body, OkP s) → (els ≠ [] → stmtsOf els ≠ []) → (∀ s ∈ els, OkP s) →
      OkP (.ifS c p x body ep els)

theorem setset (e : Expr) (c d : Comments) : (e.setComments c).setComments d = e.setComments d := by cases e <;> rfl

theorem OkP.set {e : Expr} (h : OkP e) (c : Comments) : OkP (e.setComments c) := by
  cases h with
  | simple _ h1 h2 h3 => exact .simple _ (by rw [isBlock_set]; exact h1) (by rw [isCommentBlock_set]; exact h2) (by rw [setset]; exact h3)
  | block => exact .block _ _
  | def_ _ _ _ _ _ _ _ _ _ h1 h2 h3 h4 h5 => exact .def_ _ _ _ _ _ _ _ _ _ h1 h2 h3 h4 h5
  | for_ _ _ _ _ _ h1 h2 h3 h4 => exact .for_ _ _ _ _ _ h1 h2 h3 h4
  | if_ _ _ _ _ _ _ h1 h2 h3 h4 h5 => exact .if_ _ _ _ _ _ _ h1 h2 h3 h4 h5

theorem OkP.ofBlock {e : Expr} (h : isCommentBlock e = true) : OkP e := by
  cases e <;> first | exact .block _ _ | cases h

theorem OkP.ofOk {e : Expr} (h : OkStmt e) (hb : isBlock e = false) : OkP e := by
  refine .simple _ hb h.noBlock ?_
  rw [set_id {} h.comments]; exact h

/-- statements, `n` of them not counting comment blocks -/
def Good (n : Nat) (l : List Expr) : Prop := (∀ s ∈ l, OkP s) ∧ (stmtsOf l).length = n

theorem Good.append {n m l k} (h : Good n l) (h' : Good m k) : Good (n + m) (l ++ k) := by
  refine ⟨fun s hs => ?_, by rw [stmtsOf_append, List.length_append, h.2, h'.2]⟩
  rcases List.mem_append.1 hs with hs | hs
  · exact h.1 s hs
  · exact h'.1 s hs

theorem Good.ofBlocks {m} (hm : ∀ x ∈ m, isCommentBlock x = true) : Good 0 m :=
  ⟨fun s hs => .ofBlock (hm s hs), by rw [stmtsOf_blocks hm]; rfl⟩

theorem Good.blocks {n l m} (h : Good n l) (hm : ∀ x ∈ m, isCommentBlock x = true) : Good n (l ++ m) := h.append (.ofBlocks hm)

theorem Good.upd {n l m} (h : Good n l) (hu : Upd l m) : Good n m := by
  induction hu generalizing n with
  | nil => exact h
  | keep x l m _ ih =>
    have h1 : Good (stmtsOf l).length l := ⟨fun s hs => h.1 s (List.mem_cons_of_mem _ hs), rfl⟩
    obtain ⟨i1, i2⟩ := ih h1
    refine ⟨fun s hs => ?_, ?_⟩
    · rcases List.mem_cons.1 hs with rfl | hs
      · exact h.1 _ List.mem_cons_self
      · exact i1 s hs
    · rw [← h.2]
      cases hb : isCommentBlock x with
      | true => rw [stmtsOf_cons_block hb, stmtsOf_cons_block hb, i2]
      | false => rw [stmtsOf_cons hb, stmtsOf_cons hb, List.length_cons, List.length_cons, i2]
  | set x c l m _ ih =>
    have h1 : Good (stmtsOf l).length l := ⟨fun s hs => h.1 s (List.mem_cons_of_mem _ hs), rfl⟩
    obtain ⟨i1, i2⟩ := ih h1
    refine ⟨fun s hs => ?_, ?_⟩
    · rcases List.mem_cons.1 hs with rfl | hs
      · exact (h.1 _ List.mem_cons_self).set c
      · exact i1 s hs
    · rw [← h.2]
      have hc := isCommentBlock_set x c
      cases hb : isCommentBlock x with
      | true => rw [stmtsOf_cons_block hb, stmtsOf_cons_block (hc.trans hb), i2]
      | false => rw [stmtsOf_cons hb, stmtsOf_cons (hc.trans hb), List.length_cons, List.length_cons, i2]

theorem Good.dropLast {n l x} (h : Good n l) (hx : l.getLast? = some x) (hb : isCommentBlock x = true) : Good n l.dropLast := by
  have e : l = l.dropLast ++ [x] := by
    rw [List.getLast?_eq_some_iff] at hx
    obtain ⟨ys, rfl⟩ := hx
    simp
  refine ⟨fun s hs => h.1 s (List.dropLast_subset _ hs), ?_⟩
  have := h.2
  rw [e, stmtsOf_append, stmtsOf_cons_block hb] at this
  simpa [stmtsOf] using this

theorem Good.ne {n l} (h : Good n l) : stmtsOf l ≠ [] ↔ n ≠ 0 := by
  rw [← h.2]
  cases stmtsOf l <;> simp

theorem good_of {l : List Expr} (h : ∀ s ∈ l, OkP s) : Good (stmtsOf l).length l := ⟨h, rfl⟩

/-! ## The actions -/

theorem addStmt_good {n m : Nat} {v1 v2 : Val} (h1 : Good n v1.exprs) (h2 : Good m v2.exprs) : Good (n + m) (addStmt v1 v2).exprs := by
  unfold addStmt
  split
  · split
    · exact h1.append h2
    · rename_i x hx
      split
      · rename_i hb
        exact (h1.dropLast hx hb).append (h2.upd (Upd.modHead (fun y => ⟨_, rfl⟩) _))
      · exact (h1.upd (Upd.modLast (fun y => ⟨_, rfl⟩) _)).append (h2.upd (Upd.modHead (fun y => ⟨_, rfl⟩) _))
  · exact h1.append h2

theorem addComment_good {n : Nat} {v : Val} {p t} (h : Good n v.exprs) : Good n (addComment v p t).exprs := by
  unfold addComment
  dsimp only
  refine Good.upd ?_ (Upd.modLast (fun y => ⟨_, rfl⟩) _)
  split
  · exact h
  · exact h.blocks (by intro x hx; rw [List.mem_singleton.1 hx]; rfl)

theorem addComment_blocks {v : Val} {p t} (h : ∀ s ∈ v.exprs, isCommentBlock s = true) : ∀ s ∈ (addComment v p t).exprs, isCommentBlock s = true := by
  have key : ∀ l m : List Expr, Upd l m → (∀ s ∈ l, isCommentBlock s = true) → ∀ s ∈ m, isCommentBlock s = true := by
    intro l m hu
    induction hu with
    | nil => intro h; exact h
    | keep x l m _ ih =>
      intro h s hs
      rcases List.mem_cons.1 hs with rfl | hs
      · exact h _ List.mem_cons_self
      · exact ih (fun s hs => h s (List.mem_cons_of_mem _ hs)) s hs
    | set x c l m _ ih =>
      intro h s hs
      rcases List.mem_cons.1 hs with rfl | hs
      · exact (isCommentBlock_set x c).trans (h _ List.mem_cons_self)
      · exact ih (fun s hs => h s (List.mem_cons_of_mem _ hs)) s hs
  unfold addComment
  dsimp only
  refine key _ _ (Upd.modLast (fun y => ⟨_, rfl⟩) _) ?_
  split
  · exact h
  · intro s hs
    rcases List.mem_append.1 hs with hs | hs
    · exact h s hs
    · rw [List.mem_singleton.1 hs]; rfl

theorem extractBody_good {n : Nat} {l : List Expr} (h : Good n l) : Good n (extractBody l).1 ∧ ∀ y ∈ (extractBody l).2, isCommentBlock y = true := by
  cases l with
  | nil => exact ⟨h, fun y hy => by cases hy⟩
  | cons x0 l0 =>
    unfold extractBody
    dsimp only
    cases hs : splitAtLastStmt (x0 :: l0) with
    | none => exact ⟨h, fun y hy => by cases hy⟩
    | some q =>
      obtain ⟨a, b⟩ := q
      obtain ⟨e, x, r, rfl, hr⟩ := splitAtLast_spec _ _ _ hs
      dsimp only
      rw [e] at h
      have key : ∀ x', (x' = x ∨ ∃ c, x' = x.setComments c) → ∀ r', (∀ y ∈ r', isCommentBlock y = true) → Good n (a ++ x' :: r') := by
        intro x' hx' r' hr'
        have h1 : Good n (a ++ x :: r') := by
          have e1 : ∀ r, (∀ y ∈ r, isCommentBlock y = true) → stmtsOf (a ++ x :: r) = stmtsOf (a ++ [x]) := by
            intro r hr
            rw [show a ++ x :: r = (a ++ [x]) ++ r by simp, stmtsOf_append, stmtsOf_blocks hr, List.append_nil]
          refine ⟨fun s hs => ?_, by rw [e1 r' hr', ← e1 r hr]; exact h.2⟩
          rcases List.mem_append.1 hs with hs | hs
          · exact h.1 s (List.mem_append_left _ hs)
          rcases List.mem_cons.1 hs with rfl | hs
          · exact h.1 _ (by simp)
          · exact .ofBlock (hr' s hs)
        rcases hx' with rfl | ⟨c, rfl⟩
        · exact h1
        · refine h1.upd ?_
          clear h1 h e hs
          induction a with
          | nil => exact .set _ _ _ _ (.refl _)
          | cons y a ih => exact .keep _ _ _ ih
      unfold extractLoop
      cases hsp : splitDedented x0.startPos.lineRune x.comments.after with
      | some q =>
        obtain ⟨stay, go⟩ := q
        dsimp only
        refine ⟨key _ (.inr ⟨_, rfl⟩) [] (fun y hy => by cases hy), ?_⟩
        intro y hy
        rcases List.mem_cons.1 hy with rfl | hy
        · rfl
        · exact hr y hy
      | none =>
        obtain ⟨h1, h2⟩ := extractLoop_blocks x0.startPos.lineRune r false hr
        dsimp only
        exact ⟨key _ (.inl rfl) _ h1, h2⟩

theorem extractBody_ok {l : List Expr} (h : ∀ s ∈ l, OkP s) (hn : stmtsOf l ≠ []) :
    (∀ s ∈ (extractBody l).1, OkP s) ∧ stmtsOf (extractBody l).1 ≠ [] ∧ ∀ y ∈ (extractBody l).2, isCommentBlock y = true := by
  obtain ⟨h1, h2⟩ := extractBody_good (good_of h)
  exact ⟨h1.1, h1.ne.2 ((good_of h).ne.1 hn), h2⟩

theorem extractTrailing_good : ∀ (f : Nat) (e : Expr), isBlock e = true → OkP e →
    (OkP (extractTrailing f e).1 ∧ isBlock (extractTrailing f e).1 = true) ∧ ∀ y ∈ (extractTrailing f e).2, isCommentBlock y = true := by
  intro f
  induction f with
  | zero => intro e hb h; exact ⟨⟨h, hb⟩, fun y hy => by cases hy⟩
  | succ f ih =>
    intro e hb h
    cases h with
    | simple _ hb' => rw [hb] at hb'; cases hb'
    | block => cases hb
    | def_ _ _ _ _ b _ _ _ _ h1 h2 h3 h4 h5 =>
      obtain ⟨e1, e2, e3⟩ := extractBody_ok h5 h4
      exact ⟨⟨.def_ _ _ _ _ _ _ _ _ _ h1 h2 h3 e2 e1, rfl⟩, e3⟩
    | for_ _ _ _ _ b h1 h2 h3 h4 =>
      obtain ⟨e1, e2, e3⟩ := extractBody_ok h4 h3
      exact ⟨⟨.for_ _ _ _ _ _ h1 h2 e2 e1, rfl⟩, e3⟩
    | if_ c p x t ep fa h1 h2 h3 h4 h5 =>
      unfold extractTrailing
      dsimp only
      split
      · obtain ⟨e1, e2, e3⟩ := extractBody_ok h3 h2
        exact ⟨⟨.if_ _ _ _ _ _ _ h1 e2 e1 (fun h => absurd rfl h) (fun _ h => nomatch h), rfl⟩, e3⟩
      · rename_i c2 ip2 co2 t2 ep2 fa2
        obtain ⟨⟨i1, i2⟩, i3⟩ := ih _ rfl (h5 _ List.mem_cons_self)
        refine ⟨⟨.if_ _ _ _ _ _ _ h1 h2 h3 (fun _ => ?_) ?_, rfl⟩, i3⟩
        · rw [stmtsOf_cons (by cases hx : (extractTrailing f (.ifS c2 ip2 co2 t2 ep2 fa2)).1 <;> first | rfl | (rw [hx] at i2; cases i2))]
          simp
        · intro s hs; rw [List.mem_singleton.1 hs]; exact i1
      · rename_i hne _
        obtain ⟨e1, e2, e3⟩ := extractBody_ok h5 (h4 (fun e => hne e))
        exact ⟨⟨.if_ _ _ _ _ _ _ h1 h2 h3 (fun _ => e2) e1, rfl⟩, e3⟩

/-- an `if` statement -/
def isIf : Expr → Bool
  | .ifS .. => true
  | _ => false

theorem setElse_good : ∀ (f : Nat) (p : Pos) (new : List Expr) (e e' : Expr), (∀ s ∈ new, OkP s) → stmtsOf new ≠ [] → OkP e → setElse f p new e = some e' → OkP e' ∧ isIf e' = true := by
  intro f
  induction f with
  | zero => intro p new e e' _ _ _ h; cases h
  | succ f ih =>
    intro p new e e' hn hn' he h
    cases he with
    | if_ c ip co t ep fa h2 h3 h4 h5 h6 =>
      unfold setElse at h
      cases fa with
      | nil => cases h; exact ⟨.if_ _ _ _ _ _ _ h2 h3 h4 (fun _ => hn') hn, rfl⟩
      | cons x l =>
        cases l with
        | nil =>
          dsimp only at h
          cases hx : setElse f p new x with
          | none => rw [hx] at h; cases h
          | some x' =>
            rw [hx] at h
            cases h
            obtain ⟨i1, i2⟩ := ih p new x x' hn hn' (h6 x (by simp)) hx
            refine ⟨.if_ _ _ _ _ _ _ h2 h3 h4 (fun _ => ?_) (forall_one i1), rfl⟩
            rw [stmtsOf_cons (by cases x' <;> first | rfl | cases i2)]; simp
        | cons y l => cases h; exact ⟨.if_ _ _ _ _ _ _ h2 h3 h4 (fun _ => hn') hn, rfl⟩
    | simple _ hb => cases e <;> first | (cases h; done) | (cases hb; done)
    | _ => cases h

theorem stmtsOf_ok {l : List Expr} (h : ∀ s ∈ l, OkStmt s) : stmtsOf l = l := by
  unfold stmtsOf
  rw [List.filter_eq_self]
  intro s hs
  rw [(h s hs).noBlock]; rfl

theorem OkStmt.okP {e : Expr} (h : OkStmt e) : OkP e := by
  induction h with
  | def_ _ _ _ _ _ _ _ _ h1 h2 h3 h4 h5 ih => exact .def_ _ _ _ _ _ _ _ _ _ h1 h2 h3 (by rw [stmtsOf_ok h5]; exact h4) ih
  | for_ _ _ _ _ h1 h2 h3 h4 ih => exact .for_ _ _ _ _ _ h1 h2 (by rw [stmtsOf_ok h4]; exact h3) ih
  | if_ _ _ _ _ _ _ h1 h2 h3 h4 ih1 ih2 => exact .if_ _ _ _ _ _ _ h1 (by rw [stmtsOf_ok h3]; exact h2) ih1 (by rw [stmtsOf_ok h4]; exact id) ih2
  | expr e h =>
    refine OkP.ofOk (.expr _ h) ?_
    cases h with
    | one _ h => cases h <;> rfl
    | tuple => rfl
  | assign _ _ _ _ _ h1 h2 h3 => exact OkP.ofOk (.assign _ _ _ _ _ h1 h2 h3) rfl
  | aug _ _ _ _ _ h1 h2 h3 => exact OkP.ofOk (.aug _ _ _ _ _ h1 h2 h3) rfl
  | return_ _ _ h => exact OkP.ofOk (.return_ _ _ h) rfl
  | branch _ _ h => exact OkP.ofOk (.branch _ _ h) rfl

/-! ## The induction -/

/-- what is known about the tokens -/
structure ToksC (ts : List Tok) : Prop where
  good : ∀ t ∈ ts, TokGood t
  pos : ∀ t ∈ ts, PosOK t
  block : ∀ a t u b, ts = a ++ t :: u :: b → t.kind = K.indent → u.kind ≠ K.newline ∧ u.kind ≠ K.comment ∧ u.kind ≠ K.unindent

theorem ToksC.left {a b : List Tok} (h : ToksC (a ++ b)) : ToksC a :=
  ⟨fun t ht => h.good t (List.mem_append_left _ ht), fun t ht => h.pos t (List.mem_append_left _ ht),
    fun x t u y e hk => h.block x t u (y ++ b) (by rw [e]; simp) hk⟩

theorem ToksC.right {a b : List Tok} (h : ToksC (a ++ b)) : ToksC b :=
  ⟨fun t ht => h.good t (List.mem_append_right _ ht), fun t ht => h.pos t (List.mem_append_right _ ht),
    fun x t u y e hk => h.block (a ++ x) t u y (by rw [e]; simp) hk⟩

/-- classes whose derivations may contain comments -/
def high : FNT → Bool
  | .suite _ | .stmts _ | .stmt _ | .blockStmt _ | .ifChain _ | .ifElseBlock _ | .comments | .anyStmts | .anyIfChain | .file => true
  | _ => false

/-- symbols without comments -/
def low : FSym → Bool
  | .t k => k != K.comment
  | .n a => !high a

theorem low_rhs : ∀ q ∈ fine, high q.1 = false → q.2.2.all low = true := by decide +kernel

theorem low_tokens {x ts v} (h : FDeriv x ts v) : low x = true → ∀ t ∈ ts, t.kind ≠ K.comment := by
  refine FDeriv.rec (motive_1 := fun x ts _ _ => low x = true → ∀ t ∈ ts, t.kind ≠ K.comment)
    (motive_2 := fun xs ts _ _ => xs.all low = true → ∀ t ∈ ts, t.kind ≠ K.comment) ?_ ?_ ?_ ?_ ?_ h
  · intro t hl u hu
    rw [List.mem_singleton.1 hu]
    simpa [low] using hl
  · intro a r rhs ts vs v hm _ _ _ ih hl
    exact ih (low_rhs _ hm (by simpa [low] using hl))
  · intro a b ts v hm _ ih hl
    have := low_rhs _ hm (by simpa [low] using hl)
    exact ih (by simpa using this)
  · intro _ t ht; cases ht
  · intro x xs ts ts' v vs _ _ h1 h2 hl t ht
    simp only [List.all_cons, Bool.and_eq_true] at hl
    rcases List.mem_append.1 ht with ht | ht
    · exact h1 hl.1 t ht
    · exact h2 hl.2 t ht

/-- statements, at least one -/
def Some1 (l : List Expr) : Prop := (∀ s ∈ l, OkP s) ∧ stmtsOf l ≠ []

/-- a line end or a comment -/
def Blankish (ts : List Tok) : Prop := ∀ t ∈ ts, t.kind = K.newline ∨ t.kind = K.comment

/-- what is true of the values of a class -/
def PC : FNT → List Tok → Val → Prop
  | .suite _, _, v => Some1 v.exprs
  | .stmt _, _, v => Some1 v.exprs
  | .stmts _, ts, v => (stmtsOf v.exprs = [] → Blankish ts) ∧ ∀ s ∈ v.exprs, OkP s
  | .anyStmts, ts, v => (stmtsOf v.exprs = [] → Blankish ts) ∧ ∀ s ∈ v.exprs, OkP s
  | .blockStmt _, _, v => OkP v.expr ∧ isBlock v.expr = true
  | .ifElseBlock _, _, v => OkP v.expr ∧ isIf v.expr = true
  | .ifChain _, _, v => OkP v.expr ∧ isIf v.expr = true
  | .anyIfChain, _, v => OkP v.expr ∧ isIf v.expr = true
  | .comments, _, v => ∀ s ∈ v.exprs, isCommentBlock s = true
  | .file, _, v => ∀ s ∈ v.exprs, OkP s
  | a, ts, v => P a ts v

/-- the same for a symbol -/
def PCSym : FSym → List Tok → Val → Prop
  | .t k, ts, v => ∃ t, ts = [t] ∧ t.kind = k ∧ v = Val.ofTok t
  | .n a, ts, v => PC a ts v

/-- and for a right-hand side -/
def PCRhs : List FSym → List Tok → List Val → Prop
  | [], ts, vs => ts = [] ∧ vs = []
  | x :: xs, ts, vs => ∃ ts1 ts2 v vs', ts = ts1 ++ ts2 ∧ vs = v :: vs' ∧ PCSym x ts1 v ∧ PCRhs xs ts2 vs'

/-- a production preserves the properties -/
def StepC (q : FNT × Nat × List FSym) : Prop := ∀ ts vs v, ToksC ts → PCRhs q.2.2 ts vs → semF q.2.1 vs v → PC q.1 ts v

theorem parsedC_induct (H : ∀ q ∈ fine, high q.1 = true → StepC q) {x ts v} (h : FDeriv x ts v) : ToksC ts → PCSym x ts v := by
  have hlow : ∀ (a : FNT) (ts v), FDeriv (.n a) ts v → high a = false → ToksC ts → PC a ts v := by
    intro a ts v hd hl hT
    have := (parsed_induct parsed_steps hd ⟨hT.good, hT.pos, low_tokens hd (by simp [low, hl]), hT.block⟩).1
    cases a <;> first | exact this | cases hl
  refine FDeriv.rec (motive_1 := fun x ts v _ => ToksC ts → PCSym x ts v) (motive_2 := fun xs ts vs _ => ToksC ts → PCRhs xs ts vs) ?_ ?_ ?_ ?_ ?_ h
  · intro t hT
    exact ⟨t, rfl, rfl, rfl⟩
  · intro a r rhs ts vs v hm hr hd hs ih hT
    cases hh : high a with
    | false => exact hlow a ts v (.prod a r rhs ts vs v hm hr hd hs) hh hT
    | true =>
      refine H _ hm hh ts vs v hT (ih hT) ?_
      show semF r vs v
      unfold semF
      rw [if_neg hr]; exact hs
  · intro a b ts v hm hd ih hT
    cases hh : high a with
    | false => exact hlow a ts v (.incl a b ts v hm hd) hh hT
    | true => exact H _ hm hh ts [v] v hT ⟨ts, [], v, [], by simp, rfl, ih hT, rfl, rfl⟩ rfl
  · intro _; exact ⟨rfl, rfl⟩
  · intro x xs ts ts' v vs _ _ h1 h2 hT
    exact ⟨ts, ts', v, vs, rfl, rfl, h1 hT.left, h2 hT.right⟩

/-! One introduction rule per length of the right-hand side. -/

theorem sc0 {a : FNT} {r : Nat} (H : ∀ v, semF r [] v → PC a [] v) : StepC (a, r, []) := by
  intro ts vs v hT hl hs
  dsimp only at hl hs ⊢
  obtain ⟨rfl, rfl⟩ := hl
  exact H _ hs

theorem sc1 {a : FNT} {r : Nat} {x1 : FSym} (H : ∀ t1 v1 v, PCSym x1 t1 v1 → semF r [v1] v → PC a (t1) v) : StepC (a, r, [x1]) := by
  intro ts vs v hT hl hs
  dsimp only at hl hs ⊢
  obtain ⟨t1, s1, v1, w1, rfl, rfl, h1, hl⟩ := hl
  obtain ⟨rfl, rfl⟩ := hl
  simp only [List.append_nil] at hT ⊢
  exact H _ _ _ h1 hs

theorem sc2 {a : FNT} {r : Nat} {x1 x2 : FSym} (H : ∀ t1 t2 v1 v2 v, PCSym x1 t1 v1 → PCSym x2 t2 v2 → semF r [v1, v2] v → PC a (t1 ++ (t2)) v) : StepC (a, r, [x1, x2]) := by
  intro ts vs v hT hl hs
  dsimp only at hl hs ⊢
  obtain ⟨t1, s1, v1, w1, rfl, rfl, h1, hl⟩ := hl
  obtain ⟨t2, s2, v2, w2, rfl, rfl, h2, hl⟩ := hl
  obtain ⟨rfl, rfl⟩ := hl
  simp only [List.append_nil] at hT ⊢
  exact H _ _ _ _ _ h1 h2 hs

theorem sc3 {a : FNT} {r : Nat} {x1 x2 x3 : FSym}
    (H : ∀ t1 t2 t3 v1 v2 v3 v, PCSym x1 t1 v1 → PCSym x2 t2 v2 → PCSym x3 t3 v3 → semF r [v1, v2, v3] v → PC a (t1 ++ (t2 ++ (t3))) v) : StepC (a, r, [x1, x2, x3]) := by
  intro ts vs v hT hl hs
  dsimp only at hl hs ⊢
  obtain ⟨t1, s1, v1, w1, rfl, rfl, h1, hl⟩ := hl
  obtain ⟨t2, s2, v2, w2, rfl, rfl, h2, hl⟩ := hl
  obtain ⟨t3, s3, v3, w3, rfl, rfl, h3, hl⟩ := hl
  obtain ⟨rfl, rfl⟩ := hl
  simp only [List.append_nil] at hT ⊢
  exact H _ _ _ _ _ _ _ h1 h2 h3 hs

theorem sc4 {a : FNT} {r : Nat} {x1 x2 x3 x4 : FSym}
    (H : ∀ t1 t2 t3 t4 v1 v2 v3 v4 v, PCSym x1 t1 v1 → PCSym x2 t2 v2 → PCSym x3 t3 v3 → PCSym x4 t4 v4 → semF r [v1, v2, v3, v4] v →
      PC a (t1 ++ (t2 ++ (t3 ++ (t4)))) v) : StepC (a, r, [x1, x2, x3, x4]) := by
  intro ts vs v hT hl hs
  dsimp only at hl hs ⊢
  obtain ⟨t1, s1, v1, w1, rfl, rfl, h1, hl⟩ := hl
  obtain ⟨t2, s2, v2, w2, rfl, rfl, h2, hl⟩ := hl
  obtain ⟨t3, s3, v3, w3, rfl, rfl, h3, hl⟩ := hl
  obtain ⟨t4, s4, v4, w4, rfl, rfl, h4, hl⟩ := hl
  obtain ⟨rfl, rfl⟩ := hl
  simp only [List.append_nil] at hT ⊢
  exact H _ _ _ _ _ _ _ _ _ h1 h2 h3 h4 hs

theorem sc5 {a : FNT} {r : Nat} {x1 x2 x3 x4 x5 : FSym}
    (H : ∀ t1 t2 t3 t4 t5 v1 v2 v3 v4 v5 v, ToksC (t1 ++ (t2 ++ (t3 ++ (t4 ++ (t5))))) → PCSym x1 t1 v1 → PCSym x2 t2 v2 → PCSym x3 t3 v3 → PCSym x4 t4 v4 → PCSym x5 t5 v5 →
      semF r [v1, v2, v3, v4, v5] v → PC a (t1 ++ (t2 ++ (t3 ++ (t4 ++ (t5))))) v) : StepC (a, r, [x1, x2, x3, x4, x5]) := by
  intro ts vs v hT hl hs
  dsimp only at hl hs ⊢
  obtain ⟨t1, s1, v1, w1, rfl, rfl, h1, hl⟩ := hl
  obtain ⟨t2, s2, v2, w2, rfl, rfl, h2, hl⟩ := hl
  obtain ⟨t3, s3, v3, w3, rfl, rfl, h3, hl⟩ := hl
  obtain ⟨t4, s4, v4, w4, rfl, rfl, h4, hl⟩ := hl
  obtain ⟨t5, s5, v5, w5, rfl, rfl, h5, hl⟩ := hl
  obtain ⟨rfl, rfl⟩ := hl
  simp only [List.append_nil] at hT ⊢
  exact H _ _ _ _ _ _ _ _ _ _ _ hT h1 h2 h3 h4 h5 hs

theorem sc6 {a : FNT} {r : Nat} {x1 x2 x3 x4 x5 x6 : FSym}
    (H : ∀ t1 t2 t3 t4 t5 t6 v1 v2 v3 v4 v5 v6 v, PCSym x1 t1 v1 → PCSym x2 t2 v2 → PCSym x3 t3 v3 → PCSym x4 t4 v4 → PCSym x5 t5 v5 → PCSym x6 t6 v6 →
      semF r [v1, v2, v3, v4, v5, v6] v → PC a (t1 ++ (t2 ++ (t3 ++ (t4 ++ (t5 ++ (t6)))))) v) : StepC (a, r, [x1, x2, x3, x4, x5, x6]) := by
  intro ts vs v hT hl hs
  dsimp only at hl hs ⊢
  obtain ⟨t1, s1, v1, w1, rfl, rfl, h1, hl⟩ := hl
  obtain ⟨t2, s2, v2, w2, rfl, rfl, h2, hl⟩ := hl
  obtain ⟨t3, s3, v3, w3, rfl, rfl, h3, hl⟩ := hl
  obtain ⟨t4, s4, v4, w4, rfl, rfl, h4, hl⟩ := hl
  obtain ⟨t5, s5, v5, w5, rfl, rfl, h5, hl⟩ := hl
  obtain ⟨t6, s6, v6, w6, rfl, rfl, h6, hl⟩ := hl
  obtain ⟨rfl, rfl⟩ := hl
  simp only [List.append_nil] at hT ⊢
  exact H _ _ _ _ _ _ _ _ _ _ _ _ _ h1 h2 h3 h4 h5 h6 hs

/-! ## The productions -/

theorem c1 : StepC (.file, 1, [.n .anyStmts, .t K.eof]) := by
  refine sc2 fun t1 t2 v1 v2 v h1 h2 hs => ?_
  cases hs; exact h1.2

theorem mkSuite_good {v1 v2 v4 v : Val} (h : mkSuite v1 v2 v4 = some v) (h2 : ∀ s ∈ v2.exprs, isCommentBlock s = true) {n} (h4 : Good n v4.exprs) : Good n v.exprs := by
  unfold mkSuite at h
  split at h
  · cases h; exact h4
  · rename_i cb hcb
    split at h
    · rename_i s l c hv hc
      rw [hv] at h4
      split at h
      · cases h
        have e1 : Good 0 v2.exprs.dropLast := .ofBlocks (fun x hx => h2 x (List.dropLast_subset _ hx))
        have := e1.append (h4.upd (.set s { s.comments with before := cb.comments.after } l l (.refl _)))
        rw [Nat.zero_add] at this
        exact this
      · cases h
        have := (Good.ofBlocks h2).append h4
        rw [Nat.zero_add] at this
        rw [hv]; exact this
    · cases h

theorem c2 : StepC (.suite false, 2, [.t K.newline, .n .comments, .t K.indent, .n .anyStmts, .t K.unindent]) := by
  refine sc5 fun t1 t2 t3 t4 t5 v1 v2 v3 v4 v5 v hT h1 h2 h3 h4 h5 h => ?_
  have h : mkSuite v1 v2 v4 = some v := h
  obtain ⟨h41, h42⟩ := h4
  have hg := mkSuite_good h h2 (good_of h42)
  refine ⟨hg.1, hg.ne.2 ?_⟩
  intro he
  have h41 := h41 (List.eq_nil_of_length_eq_zero he)
  obtain ⟨t3, rfl, k3, _⟩ := h3
  obtain ⟨t5, rfl, k5, _⟩ := h5
  cases t4 with
  | nil =>
    have := hT.block (t1 ++ t2) t3 t5 [] (by simp) k3
    exact this.2.2 k5
  | cons u t4 =>
    have := hT.block (t1 ++ t2) t3 u (t4 ++ [t5]) (by simp) k3
    rcases h41 u (by simp) with h | h
    · exact this.1 h
    · exact this.2.1 h

theorem some1_ok {l : List Expr} (h : l ≠ [] ∧ ∀ s ∈ l, OkStmt s) : Some1 l := ⟨fun s hs => (h.2 s hs).okP, by rw [stmtsOf_ok h.2]; exact h.1⟩

theorem c3 : StepC (.suite true, 3, [.n .simpleStmt, .n .linebreaksOpt]) := by
  refine sc2 fun t1 t2 v1 v2 v h1 h2 hs => ?_
  cases hs; exact some1_ok h1

theorem c6 : StepC (.comments, 6, []) := by
  refine sc0 fun v hs => ?_
  cases hs; exact forall_nil

theorem c7 : StepC (.comments, 7, [.n .comments, .t K.comment, .t K.newline]) := by
  refine sc3 fun t1 t2 t3 v1 v2 v3 v h1 h2 h3 h => ?_
  cases h; exact addComment_blocks h1

theorem c8 : StepC (.comments, 8, [.n .comments, .t K.newline]) := by
  refine sc2 fun t1 t2 v1 v2 v h1 h2 hs => ?_
  cases hs; exact h1

theorem c9 : StepC (.stmts false, 9, []) := by
  refine sc0 fun v hs => ?_
  cases hs; exact ⟨fun _ => forall_nil, forall_nil⟩

theorem c10 {l : Bool} : StepC (.stmts l, 10, [.n .anyStmts, .n (.stmt l)]) := by
  refine sc2 fun t1 t2 v1 v2 v h1 h2 hs => ?_
  cases hs
  have h := addStmt_good (good_of h1.2) (good_of h2.1)
  have h2' := (good_of h2.1).ne.1 h2.2
  refine ⟨fun e => absurd e (h.ne.2 (by omega)), h.1⟩

theorem c11 : StepC (.stmts false, 11, [.n (.stmts false), .t K.newline]) := by
  refine sc2 fun t1 t2 v1 v2 v h1 h2 hs => ?_
  cases hs
  obtain ⟨h11, h12⟩ := h1
  refine ⟨fun e t ht => ?_, h12⟩
  obtain ⟨t2, rfl, k2, _⟩ := h2
  rcases List.mem_append.1 ht with ht | ht
  · exact h11 e t ht
  · rw [List.mem_singleton.1 ht]; exact .inl k2

theorem c12 : StepC (.stmts false, 12, [.n .anyStmts, .t K.comment, .t K.newline]) := by
  refine sc3 fun t1 t2 t3 v1 v2 v3 v h1 h2 h3 h => ?_
  cases h
  obtain ⟨h11, h12⟩ := h1
  have hg := addComment_good (p := v2.pos) (t := v2.tok) (good_of h12)
  refine ⟨fun e t ht => ?_, hg.1⟩
  obtain ⟨t2, rfl, k2, _⟩ := h2
  obtain ⟨t3, rfl, k3, _⟩ := h3
  have e : stmtsOf (addComment v1 v2.pos v2.tok).exprs = [] := e
  have e0 : stmtsOf v1.exprs = [] := by
    have := hg.2
    rw [e] at this
    exact List.eq_nil_of_length_eq_zero this.symm
  rcases List.mem_append.1 ht with ht | ht
  · exact h11 e0 t ht
  rcases List.mem_append.1 ht with ht | ht
  · rw [List.mem_singleton.1 ht]; exact .inr k2
  · rw [List.mem_singleton.1 ht]; exact .inl k3

theorem c13 : StepC (.stmt false, 13, [.n .simpleStmt]) := by
  refine sc1 fun t1 v1 v h1 hs => ?_
  cases hs; exact some1_ok h1

theorem noCB {e : Expr} (h : isBlock e = true) : isCommentBlock e = false := by cases e <;> first | rfl | cases h

theorem c14 {l : Bool} : StepC (.stmt l, 14, [.n (.blockStmt l)]) := by
  refine sc1 fun t1 v1 v h1 hs => ?_
  have hs : (let (s, cbs) := extractTrailing (chainLength v1.expr) v1.expr
    some { v1 with exprs := s :: cbs, last := cbs.isEmpty || v1.last }) = some v := hs
  obtain ⟨⟨e1, e2⟩, e3⟩ := extractTrailing_good (chainLength v1.expr) v1.expr h1.2 h1.1
  cases hs
  refine ⟨fun s hs => ?_, ?_⟩
  · rcases List.mem_cons.1 hs with rfl | hs
    · exact e1
    · exact .ofBlock (e3 s hs)
  · show stmtsOf ((extractTrailing (chainLength v1.expr) v1.expr).1 :: _) ≠ []
    rw [stmtsOf_cons (noCB e2)]; simp

theorem c18 {l : Bool} : StepC (.blockStmt l, 18, [.n .defHeaderTypeOpt, .t (ch ':'), .n (.suite l)]) := by
  refine sc3 fun t1 t2 t3 v1 v2 v3 v h1 h2 h3 h => ?_
  obtain ⟨p, name, ps, b, cp, fc, fm, ty, e, a1, a2, a3⟩ := h1
  obtain ⟨c, sp, n, ps', b', cp', fc', fm', t, e', rfl⟩ := sem18 (h : sem 18 [v1, v2, v3] = some v)
  rw [e] at e'
  cases e'
  exact ⟨.def_ _ _ _ _ _ _ _ _ _ a1 a2 a3 h3.2 h3.1, rfl⟩

theorem c19 {l : Bool} : StepC (.blockStmt l, 19, [.t K.for_, .n .loopVars, .t K.in_, .n .expr, .t (ch ':'), .n (.suite l)]) := by
  refine sc6 fun t1 t2 t3 t4 t5 t6 v1 v2 v3 v4 v5 v6 v h1 h2 h3 h4 h5 h6 h => ?_
  cases h
  exact ⟨.for_ _ _ _ _ _ h2 h4 h6.2 h6.1, rfl⟩

theorem isIf_block {e : Expr} (h : isIf e = true) : isBlock e = true := by cases e <;> first | rfl | cases h

theorem c20 {l : Bool} : StepC (.blockStmt l, 20, [.n (.ifElseBlock l)]) := by
  refine sc1 fun t1 v1 v h1 hs => ?_
  cases hs; exact ⟨h1.1, isIf_block h1.2⟩

theorem c21 {l : Bool} : StepC (.ifChain l, 21, [.t K.if_, .n .expr, .t (ch ':'), .n (.suite l)]) := by
  refine sc4 fun t1 t2 t3 t4 v1 v2 v3 v4 v h1 h2 h3 h4 h => ?_
  cases h
  exact ⟨.if_ _ _ _ _ _ _ h2 h4.2 h4.1 (fun h => absurd rfl h) forall_nil, rfl⟩

theorem c22 {l : Bool} : StepC (.ifChain l, 22, [.n .anyIfChain, .n .elif_, .n .expr, .t (ch ':'), .n (.suite l)]) := by
  refine sc5 fun t1 t2 t3 t4 t5 v1 v2 v3 v4 v5 v _ h1 h2 h3 h4 h5 h => ?_
  have h : (setElse (chainLength v1.expr) v2.pos [.ifS {} v2.pos v3.expr v5.exprs {} []] v1.expr).map (fun e => { v1 with expr := e, last := v5.last }) = some v := h
  rw [Option.map_eq_some_iff] at h
  obtain ⟨e, he, rfl⟩ := h
  exact setElse_good _ _ _ _ _ (forall_one (.if_ _ _ _ _ _ _ h3 h5.2 h5.1 (fun h => absurd rfl h) forall_nil)) (fun h => nomatch h) h1.1 he

theorem c23 {l : Bool} : StepC (.ifElseBlock l, 23, [.n (.ifChain l)]) := by
  refine sc1 fun t1 v1 v h1 hs => ?_
  cases hs; exact h1

theorem c24 {l : Bool} : StepC (.ifElseBlock l, 24, [.n .anyIfChain, .t K.else_, .t (ch ':'), .n (.suite l)]) := by
  refine sc4 fun t1 t2 t3 t4 v1 v2 v3 v4 v h1 h2 h3 h4 h => ?_
  have h : (setElse (chainLength v1.expr) v2.pos v4.exprs v1.expr).map (fun e => { v1 with expr := e, last := v4.last }) = some v := h
  rw [Option.map_eq_some_iff] at h
  obtain ⟨e, he, rfl⟩ := h
  exact setElse_good _ _ _ _ _ h4.1 h4.2 h1.1 he

theorem c_stmts {l : Bool} : StepC (.anyStmts, 0, [.n (.stmts l)]) := by
  refine sc1 fun t1 v1 v h1 hs => ?_
  cases hs; exact h1

theorem c_chain {l : Bool} : StepC (.anyIfChain, 0, [.n (.ifChain l)]) := by
  refine sc1 fun t1 v1 v h1 hs => ?_
  cases hs; exact h1

theorem parsedC_steps : ∀ q ∈ fine, high q.1 = true → StepC q := by
  unfold fine
  refine List.forall_mem_cons.2 ⟨fun _ => c1, ?_⟩
  refine List.forall_mem_cons.2 ⟨fun _ => c2, ?_⟩
  refine List.forall_mem_cons.2 ⟨fun _ => c3, ?_⟩
  refine List.forall_mem_cons.2 ⟨(fun h => nomatch h), ?_⟩
  refine List.forall_mem_cons.2 ⟨(fun h => nomatch h), ?_⟩
  refine List.forall_mem_cons.2 ⟨fun _ => c6, ?_⟩
  refine List.forall_mem_cons.2 ⟨fun _ => c7, ?_⟩
  refine List.forall_mem_cons.2 ⟨fun _ => c8, ?_⟩
  refine List.forall_mem_cons.2 ⟨fun _ => c9, ?_⟩
  refine List.forall_mem_cons.2 ⟨fun _ => c10, ?_⟩
  refine List.forall_mem_cons.2 ⟨fun _ => c10, ?_⟩
  refine List.forall_mem_cons.2 ⟨fun _ => c11, ?_⟩
  refine List.forall_mem_cons.2 ⟨fun _ => c12, ?_⟩
  refine List.forall_mem_cons.2 ⟨fun _ => c13, ?_⟩
  refine List.forall_mem_cons.2 ⟨fun _ => c14, ?_⟩
  refine List.forall_mem_cons.2 ⟨fun _ => c14, ?_⟩
  refine List.forall_mem_cons.2 ⟨(fun h => nomatch h), ?_⟩
  refine List.forall_mem_cons.2 ⟨(fun h => nomatch h), ?_⟩
  refine List.forall_mem_cons.2 ⟨(fun h => nomatch h), ?_⟩
  refine List.forall_mem_cons.2 ⟨fun _ => c18, ?_⟩
  refine List.forall_mem_cons.2 ⟨fun _ => c18, ?_⟩
  refine List.forall_mem_cons.2 ⟨fun _ => c19, ?_⟩
  refine List.forall_mem_cons.2 ⟨fun _ => c19, ?_⟩
  refine List.forall_mem_cons.2 ⟨fun _ => c20, ?_⟩
  refine List.forall_mem_cons.2 ⟨fun _ => c20, ?_⟩
  refine List.forall_mem_cons.2 ⟨fun _ => c21, ?_⟩
  refine List.forall_mem_cons.2 ⟨fun _ => c21, ?_⟩
  refine List.forall_mem_cons.2 ⟨fun _ => c22, ?_⟩
  refine List.forall_mem_cons.2 ⟨fun _ => c22, ?_⟩
  refine List.forall_mem_cons.2 ⟨fun _ => c23, ?_⟩
  refine List.forall_mem_cons.2 ⟨fun _ => c23, ?_⟩
  refine List.forall_mem_cons.2 ⟨fun _ => c24, ?_⟩
  refine List.forall_mem_cons.2 ⟨fun _ => c24, ?_⟩
  intro q hq hh
  have key : ∀ q ∈ fine.drop 33, high q.1 = true → q ∈ [(FNT.anyStmts, 0, [FSym.n (.stmts false)]), (.anyStmts, 0, [.n (.stmts true)]),
      (.anyIfChain, 0, [.n (.ifChain false)]), (.anyIfChain, 0, [.n (.ifChain true)])] := by decide +kernel
  have := key q hq hh
  simp only [List.mem_cons, List.not_mem_nil, or_false] at this
  rcases this with rfl | rfl | rfl | rfl
  · exact c_stmts
  · exact c_stmts
  · exact c_chain
  · exact c_chain

end Verif.Round
