import Verif.Proofs.GenS
import Verif.Proofs.LexC
/-
Derivations of statements with comments.
-/
namespace Verif.Round
open Verif Verif.Syntax Verif.Lexer Verif.Print Verif.Parser Verif.Grammar Verif.Props.Grammar

/-! ## Comments do not count -/

theorem same_left {y x : Expr} (h : Same y x) (c : Comments) : Same (y.setComments c) x := by
  refine Same.rec (motive_1 := fun y x _ => Same (y.setComments c) x) (motive_2 := fun _ _ _ => True)
      ?_ ?_ ?_ ?_ ?_ ?_ ?_ ?_ ?_ ?_ ?_ ?_ ?_ ?_ ?_ ?_ ?_ ?_ ?_ ?_ ?_ ?_ ?_ ?_ ?_ ?_ ?_ ?_ ?_ ?_ ?_ ?_ h
  · intro e c s e' en fm _ ih; exact .added _ _ _ _ _ _ ih
  all_goals intros
  all_goals first
    | exact True.intro
    | (simp only [Expr.setComments]; first | (constructor <;> assumption) | (apply Same.paren; assumption))

theorem set_set (e : Expr) (c : Comments) : (e.setComments c).setComments e.comments = e := by cases e <;> rfl

theorem same_unset {e x : Expr} {c : Comments} (h : Same (e.setComments c) x) : Same e x := by
  have := same_left h e.comments
  rwa [set_set] at this

theorem isCommentBlock_set (e : Expr) (c : Comments) : isCommentBlock (e.setComments c) = isCommentBlock e := by cases e <;> rfl
theorem isBlock_set (e : Expr) (c : Comments) : isBlock (e.setComments c) = isBlock e := by cases e <;> rfl

theorem SameS.set {e e' : Expr} (h : SameS e e') (c : Comments) : SameS e (e'.setComments c) := by
  cases h with
  | simple _ _ hb h => exact .simple _ _ hb (same_set h c)
  | defS _ _ _ _ _ _ _ _ _ _ _ _ _ _ _ _ _ h1 h2 h3 => exact .defS _ _ _ _ _ _ _ _ _ _ _ _ _ _ _ _ _ h1 h2 h3
  | forS _ _ _ _ _ _ _ _ _ _ h1 h2 h3 => exact .forS _ _ _ _ _ _ _ _ _ _ h1 h2 h3
  | ifS _ _ _ _ _ _ _ _ _ _ _ _ h1 h2 h3 => exact .ifS _ _ _ _ _ _ _ _ _ _ _ _ h1 h2 h3

theorem SameS.noBlock {e e' : Expr} (h : SameS e e') : isCommentBlock e' = false := by
  cases h with
  | simple _ _ _ h => exact same_block h
  | defS => rfl
  | forS => rfl
  | ifS => rfl

/-- the statements of the two lists are the same -/
def SS (l l' : List Expr) : Prop := SameSL (stmtsOf l) (stmtsOf l')

theorem SameSL.append {l l' m m' : List Expr} (h : SameSL l l') (h' : SameSL m m') : SameSL (l ++ m) (l' ++ m') := by
  induction l generalizing l' with
  | nil => cases h; exact h'
  | cons x l ih => cases h with | cons _ x' _ l' h1 h2 => exact .cons _ _ _ _ h1 (ih h2)

theorem stmtsOf_append (l m : List Expr) : stmtsOf (l ++ m) = stmtsOf l ++ stmtsOf m := List.filter_append ..

theorem SS.append {l l' m m'} (h : SS l l') (h' : SS m m') : SS (l ++ m) (l' ++ m') := by
  unfold SS; rw [stmtsOf_append, stmtsOf_append]; exact SameSL.append h h'

theorem stmtsOf_blocks {l : List Expr} (h : ∀ x ∈ l, isCommentBlock x = true) : stmtsOf l = [] := by
  unfold stmtsOf
  rw [List.filter_eq_nil_iff]
  intro x hx
  simp [h x hx]

theorem SS.blocks {l l' m} (h : SS l l') (hm : ∀ x ∈ m, isCommentBlock x = true) : SS l (l' ++ m) := by
  unfold SS; rw [stmtsOf_append, stmtsOf_blocks hm, List.append_nil]; exact h

theorem stmtsOf_cons_block {x : Expr} {l} (h : isCommentBlock x = true) : stmtsOf (x :: l) = stmtsOf l := by simp [stmtsOf, h]
theorem stmtsOf_cons {x : Expr} {l} (h : isCommentBlock x = false) : stmtsOf (x :: l) = x :: stmtsOf l := by simp [stmtsOf, h]

/-- only comments of the elements differ -/
inductive Upd : List Expr → List Expr → Prop
  | nil : Upd [] []
  | keep (x l m) : Upd l m → Upd (x :: l) (x :: m)
  | set (x c l m) : Upd l m → Upd (x :: l) (x.setComments c :: m)

theorem Upd.refl (l : List Expr) : Upd l l := by
  induction l with
  | nil => exact .nil
  | cons x l ih => exact .keep _ _ _ ih

theorem SameSL.upd : ∀ {k l m : List Expr}, Upd l m → SameSL k (stmtsOf l) → SameSL k (stmtsOf m) := by
  intro k l m h
  induction h generalizing k with
  | nil => intro h; exact h
  | keep x l m _ ih =>
    intro h
    cases hb : isCommentBlock x with
    | true => rw [stmtsOf_cons_block hb] at h ⊢; exact ih h
    | false =>
      rw [stmtsOf_cons hb] at h ⊢
      cases h with
      | cons y _ l' _ h1 h2 => exact .cons _ _ _ _ h1 (ih h2)
  | set x c l m _ ih =>
    intro h
    cases hb : isCommentBlock x with
    | true => rw [stmtsOf_cons_block hb] at h; rw [stmtsOf_cons_block ((isCommentBlock_set x c).trans hb)]; exact ih h
    | false =>
      rw [stmtsOf_cons hb] at h
      rw [stmtsOf_cons ((isCommentBlock_set x c).trans hb)]
      cases h with
      | cons y _ l' _ h1 h2 => exact .cons _ _ _ _ (h1.set c) (ih h2)

theorem SS.upd {k l m} (h : SS k l) (hu : Upd l m) : SS k m := SameSL.upd hu h

theorem Upd.modLast {f : Expr → Expr} (hf : ∀ x, ∃ c, f x = x.setComments c) : ∀ (l : List Expr), Upd l (modLast f l) := by
  intro l
  induction l with
  | nil => exact .nil
  | cons x l ih =>
    cases l with
    | nil => obtain ⟨c, e⟩ := hf x; show Upd _ [f x]; rw [e]; exact .set _ _ _ _ .nil
    | cons y l => exact .keep _ _ _ ih

theorem Upd.modHead {f : Expr → Expr} (hf : ∀ x, ∃ c, f x = x.setComments c) (l : List Expr) : Upd l (modHead f l) := by
  cases l with
  | nil => exact .nil
  | cons x l => obtain ⟨c, e⟩ := hf x; show Upd _ (f x :: l); rw [e]; exact .set _ _ _ _ (.refl _)

theorem SS.dropLast {k l x} (h : SS k l) (hx : l.getLast? = some x) (hb : isCommentBlock x = true) : SS k l.dropLast := by
  have e : l = l.dropLast ++ [x] := by
    rw [List.getLast?_eq_some_iff] at hx
    obtain ⟨ys, rfl⟩ := hx
    simp
  unfold SS at h ⊢
  rw [e, stmtsOf_append, stmtsOf_cons_block hb] at h
  simpa [stmtsOf] using h

theorem addStmt_ss {l m : List Expr} {v1 v2 : Val} (h1 : SS l v1.exprs) (h2 : SS m v2.exprs) : SS (l ++ m) (addStmt v1 v2).exprs := by
  unfold addStmt
  split
  · split
    · exact h1.append h2
    · rename_i x hx
      split
      · rename_i hb
        exact (h1.dropLast hx hb).append (h2.upd (Upd.modHead (fun y => ⟨_, rfl⟩) _))
      · exact (h1.upd (Upd.modLast (fun y => ⟨_, rfl⟩) _)).append (h2.upd (Upd.modHead (fun y => ⟨_, rfl⟩) _))
  · exact h1.append h2

theorem addComment_ss {l : List Expr} {v : Val} {p t} (h : SS l v.exprs) : SS l (addComment v p t).exprs := by
  unfold addComment
  dsimp only
  refine SS.upd ?_ (Upd.modLast (fun y => ⟨_, rfl⟩) _)
  split
  · exact h
  · exact h.blocks (by intro x hx; rw [List.mem_singleton.1 hx]; rfl)

/-! ## Trailing comments of blocks -/

theorem splitAtLast_spec : ∀ (l a b : List Expr), splitAtLastStmt l = some (a, b) → l = a ++ b ∧ ∃ x r, b = x :: r ∧ ∀ y ∈ r, isCommentBlock y = true := by
  have hnone : ∀ l : List Expr, splitAtLastStmt l = none → ∀ y ∈ l, isCommentBlock y = true := by
    intro l
    induction l with
    | nil => intro _ y hy; cases hy
    | cons x l ih =>
      intro h y hy
      unfold splitAtLastStmt at h
      cases hs : splitAtLastStmt l with
      | some q => rw [hs] at h; cases h
      | none =>
        rw [hs] at h
        dsimp only at h
        split at h
        · rename_i hb
          rcases List.mem_cons.1 hy with rfl | hy
          · exact hb
          · exact ih hs y hy
        · cases h
  intro l
  induction l with
  | nil => intro a b h; cases h
  | cons x l ih =>
    intro a b h
    unfold splitAtLastStmt at h
    cases hs : splitAtLastStmt l with
    | some q =>
      rw [hs] at h
      obtain ⟨a', b'⟩ := q
      cases h
      obtain ⟨e, r⟩ := ih _ _ hs
      exact ⟨by rw [e]; rfl, r⟩
    | none =>
      rw [hs] at h
      dsimp only at h
      split at h
      · cases h
      · cases h; exact ⟨rfl, _, _, rfl, hnone _ hs⟩

theorem extractLoop_blocks (i : Nat) : ∀ (l : List Expr) (b : Bool), (∀ y ∈ l, isCommentBlock y = true) →
    (∀ y ∈ (extractLoop i b l).1, isCommentBlock y = true) ∧ ∀ y ∈ (extractLoop i b l).2, isCommentBlock y = true := by
  intro l
  induction l with
  | nil => intro b h; exact ⟨h, h⟩
  | cons x l ih =>
    intro b h
    unfold extractLoop
    cases hs : splitDedented i x.comments.after with
    | some q =>
      obtain ⟨stay, go⟩ := q
      dsimp only
      refine ⟨?_, ?_⟩
      · split
        · intro y hy; cases hy
        · intro y hy
          rw [List.mem_singleton.1 hy]
          exact (isCommentBlock_set _ _).trans (h x List.mem_cons_self)
      · intro y hy
        rcases List.mem_cons.1 hy with rfl | hy
        · rfl
        · exact h y (List.mem_cons_of_mem _ hy)
    | none =>
      obtain ⟨h1, h2⟩ := ih false (fun y hy => h y (List.mem_cons_of_mem _ hy))
      dsimp only
      refine ⟨?_, h2⟩
      intro y hy
      rcases List.mem_cons.1 hy with rfl | hy
      · exact h _ List.mem_cons_self
      · exact h1 y hy

theorem extractBody_ss {k l : List Expr} (h : SS k l) : SS k (extractBody l).1 ∧ ∀ y ∈ (extractBody l).2, isCommentBlock y = true := by
  cases l with
  | nil => exact ⟨h, fun y hy => by cases hy⟩
  | cons x0 l0 =>
    unfold extractBody
    dsimp only
    cases hs : splitAtLastStmt (x0 :: l0) with
    | none => exact ⟨h, fun y hy => by cases hy⟩
    | some q =>
      obtain ⟨a, b⟩ := q
      obtain ⟨e, x, r, rfl, hr⟩ := splitAtLast_spec _ _ _ hs
      dsimp only
      rw [e] at h
      have key : ∀ x', (x' = x ∨ ∃ c, x' = x.setComments c) → ∀ r', (∀ y ∈ r', isCommentBlock y = true) → SS k (a ++ x' :: r') := by
        intro x' hx' r' hr'
        have h1 : SS k (a ++ x :: r') := by
          unfold SS at h ⊢
          have e1 : ∀ r, (∀ y ∈ r, isCommentBlock y = true) → stmtsOf (a ++ x :: r) = stmtsOf (a ++ [x]) := by
            intro r hr
            rw [show a ++ x :: r = (a ++ [x]) ++ r by simp, stmtsOf_append, stmtsOf_blocks hr, List.append_nil]
          rw [e1 r' hr', ← e1 r hr]
          exact h
        rcases hx' with rfl | ⟨c, rfl⟩
        · exact h1
        · refine h1.upd ?_
          clear h1 h e hs
          induction a with
          | nil => exact .set _ _ _ _ (.refl _)
          | cons y a ih => exact .keep _ _ _ ih
      unfold extractLoop
      cases hsp : splitDedented x0.startPos.lineRune x.comments.after with
      | some q =>
        obtain ⟨stay, go⟩ := q
        dsimp only
        refine ⟨key _ (.inr ⟨_, rfl⟩) [] (fun y hy => by cases hy), ?_⟩
        intro y hy
        rcases List.mem_cons.1 hy with rfl | hy
        · rfl
        · exact hr y hy
      | none =>
        obtain ⟨h1, h2⟩ := extractLoop_blocks x0.startPos.lineRune r false hr
        dsimp only
        exact ⟨key _ (.inl rfl) _ h1, h2⟩

theorem extractTrailing_ss : ∀ (f : Nat) (s e : Expr), SameS s e → SameS s (extractTrailing f e).1 ∧ ∀ y ∈ (extractTrailing f e).2, isCommentBlock y = true := by
  intro f
  induction f with
  | zero => intro s e h; exact ⟨h, fun y hy => by cases hy⟩
  | succ f ih =>
    intro s e h
    cases h with
    | simple _ _ hb hs =>
      have : extractTrailing (f + 1) e = (e, []) := by
        have hb' : isBlock e = false := by cases hs <;> first | rfl | exact hb
        cases e <;> first | rfl | cases hb'
      rw [this]
      exact ⟨.simple _ _ hb hs, fun y hy => by cases hy⟩
    | defS _ _ _ _ _ _ _ _ _ _ _ _ b' _ _ _ _ h1 h2 h3 =>
      obtain ⟨e1, e2⟩ := extractBody_ss (k := _) (l := b') h2
      exact ⟨.defS _ _ _ _ _ _ _ _ _ _ _ _ _ _ _ _ _ h1 e1 h3, e2⟩
    | forS _ _ _ _ _ _ _ _ _ b' h1 h2 h3 =>
      obtain ⟨e1, e2⟩ := extractBody_ss (k := _) (l := b') h3
      exact ⟨.forS _ _ _ _ _ _ _ _ _ _ h1 h2 e1, e2⟩
    | ifS c p x t ep fs c' p' x' t' ep' f' h1 h2 h3 =>
      unfold extractTrailing
      dsimp only
      split
      · obtain ⟨e1, e2⟩ := extractBody_ss (k := t) (l := t') h2
        exact ⟨.ifS _ _ _ _ _ _ _ _ _ _ _ _ h1 e1 h3, e2⟩
      · rename_i c2 ip2 co2 t2 ep2 fa2
        rw [stmtsOf_cons (show isCommentBlock (.ifS c2 ip2 co2 t2 ep2 fa2) = false from rfl)] at h3
        generalize hsf : stmtsOf fs = k at h3
        cases h3 with
        | cons y _ k0 _ hy hk =>
          obtain ⟨i1, i2⟩ := ih y _ hy
          refine ⟨.ifS _ _ _ _ _ _ _ _ _ _ _ _ h1 h2 ?_, i2⟩
          rw [hsf, stmtsOf_cons i1.noBlock]
          exact .cons _ _ _ _ i1 hk
      · rename_i fa _ _
        obtain ⟨e1, e2⟩ := extractBody_ss (k := fs) (l := f') h3
        exact ⟨.ifS _ _ _ _ _ _ _ _ _ _ _ _ h1 h2 e1, e2⟩

/-! ## Statements -/

/-- the value is the statements of `l` -/
def SSv (l : List Expr) (v : Val) : Prop := SS l v.exprs

/-- a list of statements -/
abbrev StmtsC (l : List Expr) (as : List ATok) : Prop := Gen as (.n (.stmts false)) (SSv l)

theorem c_stmts0 : StmtsC [] [] := Gen.prod0 Fm.stmtsfalse_9 (by decide) ⟨_, rfl, .nil⟩

theorem c_nl {l acc} (h : StmtsC l acc) : StmtsC l (acc ++ [NL]) :=
  Gen.prod2 Fm.stmtsfalse_11 (by decide) h (gtok K.newline [10]) (fun v1 v2 q _ => ⟨_, rfl, q⟩)

theorem c_com {l acc} (c : Bytes) (h : StmtsC l acc) : StmtsC l (acc ++ [CM c, NL]) :=
  Gen.prod3 Fm.stmtsfalse_12 (by decide) (stmts_any h) (gtok K.comment c) (gtok K.newline [10]) (fun v1 v2 v3 q _ _ => ⟨_, rfl, addComment_ss q⟩)

theorem c_fil {g ag} (hg : Fil g ag) : ∀ {l acc}, StmtsC l acc → StmtsC l (acc ++ ag) := by
  induction hg with
  | nil => intro l acc h; simpa using h
  | blank g ag _ ih => intro l acc h; have := ih (c_nl h); simpa using this
  | com k c g ag _ _ ih => intro l acc h; have := ih (c_com c h); simpa using this

/-- the tokens extend any list of statements -/
def ExtC (ss : List Expr) (as : List ATok) : Prop := ∀ l acc, StmtsC l acc → StmtsC (l ++ ss) (acc ++ as)

theorem ExtC.app {s1 s2 a1 a2} (h1 : ExtC s1 a1) (h2 : ExtC s2 a2) : ExtC (s1 ++ s2) (a1 ++ a2) :=
  fun l acc h => by rw [← List.append_assoc, ← List.append_assoc]; exact h2 _ _ (h1 _ _ h)

theorem StmtsC.cast {l l' as} (h : StmtsC l as) (e : stmtsOf l = stmtsOf l') : StmtsC l' as := by
  refine Gen.mono h (fun v q => ?_)
  show SameSL _ _
  rw [← e]; exact q

theorem ExtC.cast {l l' as} (h : ExtC l as) (e : stmtsOf l = stmtsOf l') : ExtC l' as :=
  fun k acc hk => (h k acc hk).cast (by rw [stmtsOf_append, stmtsOf_append, e])

theorem ExtC.stmts {l as} (h : ExtC l as) : StmtsC l as := h [] [] c_stmts0

theorem ExtC.fil {l as g ag} (h : ExtC l as) (hg : Fil g ag) : ExtC l (as ++ ag) := fun k acc hk => by
  rw [← List.append_assoc]; exact c_fil hg (h k acc hk)

theorem ss_one {s e : Expr} {cbs : List Expr} (hb : isCommentBlock s = false) (h : SameS s e) (hc : ∀ y ∈ cbs, isCommentBlock y = true) : SS [s] (e :: cbs) := by
  unfold SS
  rw [stmtsOf_cons hb, stmtsOf_cons h.noBlock, stmtsOf_blocks hc]
  exact .cons _ _ _ _ h .nil

/-- a simple statement and its line end -/
theorem extC_simple {s as w aw} (h : Gen as (.n .smallStmt) (SE s)) (hb : isBlock s = false) (hcb : isCommentBlock s = false) (hw : End w aw) : ExtC [s] (as ++ aw) := by
  obtain ⟨e, g, ag, _, hg, rfl, rfl⟩ := hw
  have h1 : Gen (as ++ [NL]) (.n .simpleStmt) (SSv [s]) :=
    Gen.prod4 (R := SSv [s]) Fm.simpleStmt_27 (by decide) h
      (Gen.prod0 (R := fun v => v.exprs = []) Fm.smallStmtsContinuation_28 (by decide) ⟨_, rfl, rfl⟩)
      (Gen.prod0 (R := fun _ => True) Fm.semiOpt_38 (by decide) ⟨_, rfl, trivial⟩) (gtok K.newline [10])
      (fun v1 v2 v3 v4 q1 q2 _ _ => ⟨_, rfl, by
        show SS [s] (v1.expr :: v2.exprs)
        rw [q2]
        exact ss_one hcb (.simple _ _ hb q1) (fun y hy => by cases hy)⟩)
  have h2 : Gen (as ++ [NL]) (.n (.stmt false)) (SSv [s]) :=
    Gen.prod1 Fm.stmtfalse_13 (by decide) h1 (fun v q => ⟨_, rfl, q⟩)
  have h3 : ExtC [s] (as ++ [NL]) := fun l acc hl =>
    Gen.prod2 Fm.stmtsfalse_10 (by decide) (stmts_any hl) h2 (fun v1 v2 q1 q2 => ⟨_, rfl, addStmt_ss q1 q2⟩)
  have h4 := h3.fil hg
  rw [List.append_assoc] at h4
  exact h4

/-- the value is the statement `s` -/
def SSE (s : Expr) (v : Val) : Prop := SameS s v.expr

/-- a statement with a block -/
theorem extC_block {s as} (hcb : isCommentBlock s = false) (h : Gen as (.n (.blockStmt false)) (SSE s)) : ExtC [s] as := by
  intro l acc hl
  have h2 : Gen as (.n (.stmt false)) (SSv [s]) := by
    refine Gen.prod1 Fm.stmtfalse_14 (by decide) h (fun v q => ?_)
    obtain ⟨e1, e2⟩ := extractTrailing_ss (chainLength v.expr) s v.expr q
    exact ⟨_, rfl, ss_one hcb e1 e2⟩
  exact Gen.prod2 Fm.stmtsfalse_10 (by decide) (stmts_any hl) h2 (fun v1 v2 q1 q2 => ⟨_, rfl, addStmt_ss q1 q2⟩)

/-! ## Blocks -/

/-- comment blocks with comments -/
def CBv (v : Val) : Prop := ∀ x ∈ v.exprs, isCommentBlock x = true ∧ x.comments.after ≠ []

theorem modLast_mem {f : Expr → Expr} : ∀ {l : List Expr} {x}, x ∈ modLast f l → (∃ y, l.getLast? = some y ∧ x = f y) ∨ x ∈ l.dropLast := by
  intro l
  induction l with
  | nil => intro x h; cases h
  | cons a l ih =>
    intro x h
    cases l with
    | nil => exact .inl ⟨a, rfl, List.mem_singleton.1 h⟩
    | cons b l =>
      rcases List.mem_cons.1 (show x ∈ a :: modLast f (b :: l) from h) with rfl | h
      · exact .inr (by simp)
      · rcases ih h with ⟨y, e, rfl⟩ | h
        · exact .inl ⟨y, by rw [List.getLast?_cons_cons]; exact e, rfl⟩
        · exact .inr (by rw [List.dropLast_cons_cons]; exact List.mem_cons_of_mem _ h)

theorem addComment_cb {v : Val} {p t} (h : CBv v) : CBv (addComment v p t) := by
  intro x hx
  have h' : ∀ y ∈ (if v.last then v.exprs else v.exprs ++ [.commentBlock {} p]), isCommentBlock y = true := by
    intro y hy
    split at hy
    · exact (h y hy).1
    · rcases List.mem_append.1 hy with hy | hy
      · exact (h y hy).1
      · rw [List.mem_singleton.1 hy]; rfl
  have hd : ∀ y ∈ (if v.last then v.exprs else v.exprs ++ [.commentBlock {} p]).dropLast, y ∈ v.exprs := by
    intro y hy
    split at hy
    · exact List.dropLast_subset _ hy
    · simpa using hy
  rcases modLast_mem hx with ⟨y, e, rfl⟩ | hx
  · have hb := h' y (List.mem_of_getLast? e)
    refine ⟨(isCommentBlock_set _ _).trans hb, ?_⟩
    cases y <;> first | cases hb | skip
    show _ ++ [_] ≠ []
    simp
  · exact h x (hd x hx)

theorem c_comments {g ag} (hg : Fil g ag) : Gen ag (.n .comments) CBv := by
  have key : ∀ {g ag}, Fil g ag → ∀ {acc}, Gen acc (.n .comments) CBv → Gen (acc ++ ag) (.n .comments) CBv := by
    intro g ag hg
    induction hg with
    | nil => intro acc h; simpa using h
    | blank g ag _ ih =>
      intro acc h
      have := ih (Gen.prod2 (R := CBv) Fm.comments_8 (by decide) h (gtok K.newline [10]) (fun v1 v2 q _ => ⟨_, rfl, q⟩))
      simpa [NL] using this
    | com k c g ag _ _ ih =>
      intro acc h
      have := ih (Gen.prod3 (R := CBv) Fm.comments_7 (by decide) h (gtok K.comment c) (gtok K.newline [10]) (fun v1 v2 v3 q _ _ => ⟨_, rfl, addComment_cb q⟩))
      simpa [CM, NL] using this
  have := key hg (Gen.prod0 (R := CBv) Fm.comments_6 (by decide) ⟨_, rfl, fun x hx => by cases hx⟩)
  simpa using this

theorem mkSuite_ss {l : List Expr} {v1 v2 v4 : Val} (h2 : CBv v2) (h4 : SS l v4.exprs) (hl : stmtsOf l ≠ []) : ∃ v, mkSuite v1 v2 v4 = some v ∧ SSv l v := by
  unfold mkSuite
  cases hg : v2.exprs.getLast? with
  | none => exact ⟨_, rfl, h4⟩
  | some cb =>
    obtain ⟨hb, ha⟩ := h2 cb (List.mem_of_getLast? hg)
    dsimp only
    cases he : v4.exprs with
    | nil =>
      rw [he] at h4
      unfold SS at h4
      generalize stmtsOf l = k at h4 hl
      cases h4
      exact absurd rfl hl
    | cons s r =>
      cases hc : cb.comments.after.getLast? with
      | none => exact absurd (List.getLast?_eq_none_iff.1 hc) ha
      | some c =>
        dsimp only
        have hblk : stmtsOf v2.exprs = [] := stmtsOf_blocks (fun x hx => (h2 x hx).1)
        have hblk2 : stmtsOf v2.exprs.dropLast = [] := stmtsOf_blocks (fun x hx => (h2 x (List.dropLast_subset _ hx)).1)
        rw [he] at h4
        split
        · refine ⟨_, rfl, ?_⟩
          show SameSL _ (stmtsOf (v2.exprs.dropLast ++ (setBefore cb.comments.after s :: r)))
          rw [stmtsOf_append, hblk2]
          exact SS.upd h4 (.set _ _ _ _ (.refl _))
        · refine ⟨_, rfl, ?_⟩
          show SameSL _ (stmtsOf (v2.exprs ++ s :: r))
          rw [stmtsOf_append, hblk]
          exact h4

/-- an indented block -/
theorem c_suite {l ae as w} (he : End w ae) (h : StmtsC l as) (hl : stmtsOf l ≠ []) : Gen (ae ++ IND :: (as ++ [UNIND])) (.n (.suite false)) (SSv l) := by
  obtain ⟨e, g, ag, _, hg, rfl, rfl⟩ := he
  have := Gen.prod5 (R := SSv l) Fm.suitefalse_2 (by decide) (gtok K.newline [10]) (c_comments hg)
    (gtok K.indent []) (stmts_any h) (gtok K.unindent [])
    (fun v1 v2 v3 v4 v5 _ q2 _ q4 _ => mkSuite_ss q2 q4 hl)
  exact this

/-- the tokens of a block -/
def Suite (l : List Expr) (as : List ATok) : Prop := Gen as (.n (.suite false)) (SSv l)

theorem c_for {c p v x body as1 as2 as3} (h1 : Gen as1 (.n .loopVars) (SE v)) (h2 : Gen as2 (.n .expr) (SE x)) (h3 : Suite body as3) :
    Gen (W K.for_ b!"for" :: (as1 ++ (W K.in_ b!"in" :: (as2 ++ (W 58 b!":" :: as3))))) (.n (.blockStmt false)) (SSE (.forS c p v x body)) :=
  Gen.prod6 (R := SSE (.forS c p v x body)) Fm.blockStmtfalse_19 (by decide) (gtok K.for_ b!"for") h1 (gtok K.in_ b!"in") h2 (gtok 58 b!":") h3
    (fun v1 v2 v3 v4 v5 v6 _ q2 _ q4 _ q6 => ⟨_, rfl, .forS _ _ _ _ _ _ _ _ _ _ q2 q4 q6⟩)

theorem c_def {c p name ps body cp fc fm ty as as2} (h : Gen as (.n .defHeaderTypeOpt) (SDef name ps ty)) (h2 : Suite body as2) :
    Gen (as ++ (W 58 b!":" :: as2)) (.n (.blockStmt false)) (SSE (.defS c p name ps body cp fc fm ty)) :=
  Gen.prod3 (R := SSE (.defS c p name ps body cp fc fm ty)) Fm.blockStmtfalse_18 (by decide) h (gtok 58 b!":") h2
    (fun v1 v2 v3 q1 _ q3 => by
      obtain ⟨c, p, ps', b, cp, fc, fm, ty', e, h1, h2⟩ := q1
      refine ⟨{ v1 with expr := .defS c p name ps' v3.exprs v2.pos fc fm ty', last := v3.last }, ?_, .defS _ _ _ _ _ _ _ _ _ _ _ _ _ _ _ _ _ h1 q3 h2⟩
      show (match v1.expr with
        | .defS c sp n ps _ _ fc fm t => some { v1 with expr := .defS c sp n ps v3.exprs v2.pos fc fm t, last := v3.last }
        | _ => none) = _
      rw [e])

/-! ## Chains of `if` and `elif` -/

/-- the branches of a chain and the block after the last `else` -/
inductive VD : List (Expr × List Expr) → List Expr → Expr → Prop
  | one (x t els c p x' t' ep els') : Same x x' → SS t t' → SS els els' → (els = [] → els' = []) → VD [(x, t)] els (.ifS c p x' t' ep els')
  | cons (x t q l els c p x' t' ep e) : Same x x' → SS t t' → VD (q :: l) els e → VD ((x, t) :: q :: l) els (.ifS c p x' t' ep [e])

theorem Pre.noBlock {l c p x t ep els w} (hp : Pre l (.ifS c p x t ep els) w) : isCommentBlock w = false := by cases hp <;> rfl

theorem VD.same {l x t els v c p ep w} (h : VD (l ++ [(x, t)]) els v) (hp : Pre l (.ifS c p x t ep els) w) : SameS w v := by
  induction l generalizing v w with
  | nil =>
    cases hp
    cases h with
    | one _ _ _ _ _ _ _ _ _ h1 h2 h3 => exact .ifS _ _ _ _ _ _ _ _ _ _ _ _ h1 h2 h3
  | cons q l ih =>
    cases hp with
    | cons x0 t0 _ _ w c p ep hp =>
      generalize hm : l ++ [(x, t)] = m at h
      rw [List.cons_append, hm] at h
      cases h with
      | one => simp at hm
      | cons _ _ q' l' _ _ _ _ _ _ e h1 h2 h3 =>
        have hw := ih (hm ▸ h3) hp
        refine .ifS _ _ _ _ _ _ _ _ _ _ _ _ h1 h2 ?_
        rw [stmtsOf_cons hp.noBlock, stmtsOf_cons hw.noBlock]
        exact .cons _ _ _ _ hw .nil

theorem vd_setElse {l v} (h : VD l [] v) : ∀ (p : Pos) (new : List Expr), ∃ e, setElse (chainLength v) p new v = some e ∧
    (∀ els, els ≠ [] → SS els new → VD l els e) ∧ (∀ x t c q x' t' ep, new = [.ifS c q x' t' ep []] → Same x x' → SS t t' → VD (l ++ [(x, t)]) [] e) := by
  generalize hels : ([] : List Expr) = els0 at h
  induction h with
  | one x t els c p x' t' ep els' h1 h2 h3 h4 =>
    intro p' new
    subst hels
    have := h4 rfl
    subst this
    refine ⟨.ifS c p x' t' ⟨{}, p'⟩ new, rfl, fun els hne hl => .one _ _ _ _ _ _ _ _ _ h1 h2 hl (fun e => absurd e hne), ?_⟩
    rintro x2 t2 c2 q x2' t2' ep2 rfl hx ht
    exact .cons _ _ _ _ _ _ _ _ _ _ _ h1 h2 (.one _ _ _ _ _ _ _ _ _ hx ht .nil (fun _ => rfl))
  | cons x t q l els c p x' t' ep e h1 h2 h3 ih =>
    intro p' new
    obtain ⟨e', he, hA, hB⟩ := ih hels p' new
    refine ⟨.ifS c p x' t' ep [e'], ?_, fun els hne hl => .cons _ _ _ _ _ _ _ _ _ _ _ h1 h2 (hA els hne hl), ?_⟩
    · show ((setElse (chainLength e) p' new e).map fun x'' => Expr.ifS c p x' t' ep [x'']) = _
      rw [he]; rfl
    · intro x2 t2 c2 q2 x2' t2' ep2 hn hx ht
      exact .cons _ _ _ _ _ _ _ _ _ _ _ h1 h2 (hB x2 t2 c2 q2 x2' t2' ep2 hn hx ht)

def VDv (l : List (Expr × List Expr)) (els : List Expr) (v : Val) : Prop := VD l els v.expr

theorem c_if {x t as1 as2} (h1 : Gen as1 (.n .expr) (SE x)) (h2 : Suite t as2) :
    Gen (W K.if_ b!"if" :: (as1 ++ (W 58 b!":" :: as2))) (.n (.ifChain false)) (VDv [(x, t)] []) :=
  Gen.prod4 (R := VDv [(x, t)] []) Fm.ifChainfalse_21 (by decide) (gtok K.if_ b!"if") h1 (gtok 58 b!":") h2
    (fun v1 v2 v3 v4 _ q2 _ q4 => ⟨_, rfl, .one _ _ _ _ _ _ _ _ _ q2 q4 .nil (fun _ => rfl)⟩)

theorem c_elif {x t l as as1 as2} (h : Gen as (.n (.ifChain false)) (VDv l [])) (h1 : Gen as1 (.n .expr) (SE x)) (h2 : Suite t as2) :
    Gen (as ++ (W K.elif b!"elif" :: (as1 ++ (W 58 b!":" :: as2)))) (.n (.ifChain false)) (VDv (l ++ [(x, t)]) []) :=
  Gen.prod5 (R := VDv (l ++ [(x, t)]) []) Fm.ifChainfalse_22 (by decide) (chain_any h)
    (Gen.prod1 (R := fun _ => True) Fm.elif_26 (by decide) (gtok K.elif b!"elif") (fun v _ => ⟨_, rfl, trivial⟩)) h1 (gtok 58 b!":") h2
    (fun v1 v2 v3 v4 v5 q1 _ q3 _ q5 => by
      obtain ⟨e, he, _, hB⟩ := vd_setElse q1 v2.pos [.ifS {} v2.pos v3.expr v5.exprs {} []]
      refine ⟨{ v1 with expr := e, last := v5.last }, ?_, hB _ _ _ _ _ _ _ rfl q3 q5⟩
      show (setElse (chainLength v1.expr) v2.pos [.ifS {} v2.pos v3.expr v5.exprs {} []] v1.expr).map _ = _
      rw [he]; rfl)

theorem c_noElse {l as R} (h : Gen as (.n (.ifChain false)) (VDv l [])) (hs : ∀ v, VDv l [] v → R v) : Gen as (.n (.blockStmt false)) R :=
  Gen.prod1 Fm.blockStmtfalse_20 (by decide) (Gen.prod1 (R := R) Fm.ifElseBlockfalse_23 (by decide) h (fun v q => ⟨_, rfl, hs v q⟩)) (fun v q => ⟨_, rfl, q⟩)

theorem c_else {l els as as2 R} (h : Gen as (.n (.ifChain false)) (VDv l [])) (h2 : Suite els as2) (hne : els ≠ []) (hs : ∀ v, VDv l els v → R v) :
    Gen (as ++ (W K.else_ b!"else" :: (W 58 b!":" :: as2))) (.n (.blockStmt false)) R :=
  Gen.prod1 Fm.blockStmtfalse_20 (by decide) (Gen.prod4 (R := R) Fm.ifElseBlockfalse_24 (by decide) (chain_any h) (gtok K.else_ b!"else") (gtok 58 b!":") h2
    (fun v1 v2 v3 v4 q1 _ _ q4 => by
      obtain ⟨e, he, hA, _⟩ := vd_setElse q1 v2.pos v4.exprs
      refine ⟨{ v1 with expr := e, last := v4.last }, ?_, hs _ (hA _ hne q4)⟩
      show (setElse (chainLength v1.expr) v2.pos v4.exprs v1.expr).map _ = _
      rw [he]; rfl)) (fun v q => ⟨_, rfl, q⟩)

end Verif.Round
