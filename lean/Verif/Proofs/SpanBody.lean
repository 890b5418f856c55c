import Verif.Proofs.SpanExpr
/-
C97: the spans of statements, of comments that become statements, and of bodies.
-/
namespace Verif.Props.Spans
open Verif Verif.Syntax Verif.Lexer Verif.Props.Lexer Verif.Parser Verif.Grammar Verif.Props.Grammar

/-! ### Comments do not matter for the spans -/

theorem start_setComments (c : Comments) (e : Expr) : (e.setComments c).startPos = e.startPos := by cases e <;> rfl
theorem end_setComments (c : Comments) (e : Expr) : (e.setComments c).endPos = e.endPos := by cases e <;> rfl
theorem kids_setComments (c : Comments) (e : Expr) : kids (e.setComments c) = kids e := by cases e <;> rfl
theorem located_setComments {text : Bytes} (c : Comments) (e : Expr) : Located text (e.setComments c) = Located text e := by
  cases e <;> rfl
theorem block_setComments (c : Comments) (e : Expr) : isBlock (e.setComments c) = isBlock e := by cases e <;> rfl
theorem comments_setComments {text : Bytes} (c : Comments) {e : Expr} (h : Nested text e) : (e.setComments c).comments = c := by
  cases e <;> first | rfl | exact h.located.elim

theorem Nested.setComments {text : Bytes} (c : Comments) {e : Expr} (h : Nested text e) : Nested text (e.setComments c) :=
  .mk _ (by rw [located_setComments]; exact h.located)
    (by rw [start_setComments, end_setComments, kids_setComments]; exact h.order)
    (by rw [kids_setComments]; exact h.kid)

/-! ### Statements -/

/-- comments one after the other -/
inductive Coms (text : Bytes) : Nat → List Comment → Nat → Prop
  | nil {lo hi} : lo ≤ hi → Coms text lo [] hi
  | cons {lo hi} {c : Comment} {l} : lo ≤ c.start.byte → At text c.start b!"#" → Coms text c.start.byte l hi → Coms text lo (c :: l) hi

mutual
/-- statements one after the other, with the comments that follow them -/
inductive Body (text : Bytes) : Nat → List Expr → Nat → Prop
  | nil {lo hi} : lo ≤ hi → Body text lo [] hi
  | cons {lo : Nat} {s : Expr} {k m : Nat} {l : List Expr} {hi : Nat} : lo ≤ s.startPos.byte → Nested text s → s.endPos.byte ≤ k →
      Stm text s k → Coms text k s.comments.after m → Body text m l hi → Body text lo (s :: l) hi
/-- the comments in the last body of the statement come before `k` -/
inductive Stm (text : Bytes) : Expr → Nat → Prop
  | simple {e k} : isBlock e = false → Stm text e k
  | defS {c p n ps b q f g t lo hi} : Body text lo b hi → Stm text (.defS c p n ps b q f g t) hi
  | forS {c p v x b lo hi} : Body text lo b hi → Stm text (.forS c p v x b) hi
  | ifS {c p x t e lo hi} : Body text lo t hi → Stm text (.ifS c p x t e []) hi
  | elif {c p x t e c2 p2 x2 t2 e2 f2 hi} : Stm text (.ifS c2 p2 x2 t2 e2 f2) hi →
      Stm text (.ifS c p x t e [.ifS c2 p2 x2 t2 e2 f2]) hi
  | else_ {c p x t e f lo hi} : Body text lo f hi → f ≠ [] → Stm text (.ifS c p x t e f) hi
end

theorem Coms.le {text lo l hi} (h : Coms text lo l hi) : lo ≤ hi := by
  induction h with
  | nil h => exact h
  | cons _ _ _ ih => omega

theorem Coms.mono {text lo l hi lo' hi'} (h : Coms text lo l hi) (h1 : lo' ≤ lo) (h2 : hi ≤ hi') : Coms text lo' l hi' := by
  induction h generalizing lo' with
  | nil h => exact .nil (by omega)
  | cons a b _ ih => exact .cons (by omega) b (ih (Nat.le_refl _) h2)

theorem Coms.append {text lo a m b hi} (h1 : Coms text lo a m) (h2 : Coms text m b hi) : Coms text lo (a ++ b) hi := by
  induction h1 with
  | nil h => exact h2.mono h (Nat.le_refl _)
  | cons h h' _ ih => exact .cons h h' (ih h2)

theorem Coms.split {text lo a b hi} (h : Coms text lo (a ++ b) hi) : ∃ m, Coms text lo a m ∧ Coms text m b hi := by
  induction a generalizing lo with
  | nil => exact ⟨lo, .nil (Nat.le_refl _), h⟩
  | cons t a ih =>
    cases h with
    | cons h1 h2 h3 =>
      obtain ⟨m, h4, h5⟩ := ih h3
      exact ⟨m, .cons h1 h2 h4, h5⟩

theorem Stm.mono {text : Bytes} : ∀ {e k k'}, Stm text e k → k ≤ k' → Stm text e k' := by
  intro e k k' h hk
  have body : ∀ {l lo hi hi'}, Body text lo l hi → hi ≤ hi' → Body text lo l hi' := by
    intro l
    induction l with
    | nil => intro lo hi hi' h h'; cases h; exact .nil (by omega)
    | cons x l ih =>
      intro lo hi hi' h h'
      cases h with
      | cons a b c d e f => exact .cons a b c d e (ih f h')
  generalize hk0 : k = k0 at h
  induction h using Stm.rec (motive_1 := fun _ _ _ _ => True) generalizing k' with
  | nil => trivial
  | cons => trivial
  | simple h => exact .simple h
  | defS h => exact .defS (body h (by omega))
  | forS h => exact .forS (body h (by omega))
  | ifS h => exact .ifS (body h (by omega))
  | elif _ ih => exact .elif (ih (by omega) hk0)
  | else_ h h' => exact .else_ (body h (by omega)) h'

theorem Body.le {text lo l hi} (h : Body text lo l hi) : lo ≤ hi := by
  induction l generalizing lo with
  | nil => cases h; assumption
  | cons x l ih =>
    cases h with
    | cons a b c d e f => have := b.span; have := e.le; have := ih f; omega

theorem Body.mono {text lo l hi lo' hi'} (h : Body text lo l hi) (h1 : lo' ≤ lo) (h2 : hi ≤ hi') : Body text lo' l hi' := by
  induction l generalizing lo lo' with
  | nil => cases h; exact .nil (by omega)
  | cons x l ih =>
    cases h with
    | cons a b c d e f => exact .cons (by omega) b c d e (ih f (Nat.le_refl _))

theorem Body.append {text lo a m b hi} (h1 : Body text lo a m) (h2 : Body text m b hi) : Body text lo (a ++ b) hi := by
  induction a generalizing lo with
  | nil => exact h2.mono h1.le (Nat.le_refl _)
  | cons x a ih =>
    cases h1 with
    | cons p q r s t u => exact .cons p q r s t (ih u)

theorem Body.split {text lo a b hi} (h : Body text lo (a ++ b) hi) : ∃ m, Body text lo a m ∧ Body text m b hi := by
  induction a generalizing lo with
  | nil => exact ⟨lo, .nil (Nat.le_refl _), h⟩
  | cons x a ih =>
    cases h with
    | cons p q r s t u =>
      obtain ⟨m, h1, h2⟩ := ih u
      exact ⟨m, .cons p q r s t h1, h2⟩

theorem Body.rebase {text lo x l hi lo'} (h : Body text lo (x :: l) hi) (h' : lo' ≤ x.startPos.byte) : Body text lo' (x :: l) hi := by
  cases h with
  | cons p q r s t u => exact .cons h' q r s t u

theorem Body.order {text lo l hi} (h : Body text lo l hi) : InOrder lo l hi := by
  induction l generalizing lo with
  | nil => exact h.le
  | cons x l ih =>
    cases h with
    | cons p q r s t u => exact ⟨p, q.span, (ih u).mono (by have := t.le; omega) (Nat.le_refl _)⟩

theorem Body.nested {text lo l hi} (h : Body text lo l hi) : ∀ x ∈ l, Nested text x := by
  induction l generalizing lo with
  | nil => exact nofun
  | cons x l ih =>
    cases h with
    | cons p q r s t u =>
      intro y hy
      rcases List.mem_cons.1 hy with rfl | hy
      · exact q
      · exact ih u y hy

theorem Exs.body {text lo l hi} (h : Exs text lo l hi) : Body text lo l hi := by
  induction h with
  | nil h => exact .nil h
  | cons h _ ih => exact .cons h.lo h.nested h.hi (.simple h.simple) (by rw [h.after]; exact .nil (Nat.le_refl _)) ih

theorem Stm.setComments {text e k} (c : Comments) (h : Stm text e k) : Stm text (e.setComments c) k := by
  cases h with
  | simple h => exact .simple (by rw [block_setComments]; exact h)
  | defS h => exact .defS h
  | forS h => exact .forS h
  | ifS h => exact .ifS h
  | elif h => exact .elif h
  | else_ h h' => exact .else_ h h'

/-- changing the comments of a statement -/
theorem Body.withComments {text lo s k m l hi} (c : Comments) (a : lo ≤ s.startPos.byte) (b : Nested text s) (d : s.endPos.byte ≤ k)
    (e : Stm text s k) (f : Coms text k c.after m) (g : Body text m l hi) : Body text lo (s.setComments c :: l) hi :=
  .cons (by rw [start_setComments]; exact a) (b.setComments c) (by rw [end_setComments]; exact d) (e.setComments c)
    (by rw [comments_setComments c b]; exact f) g

theorem body_before {text lo s l hi} (c : List Comment) (h : Body text lo (s :: l) hi) : Body text lo (setBefore c s :: l) hi := by
  cases h with
  | cons p q r u v w => exact Body.withComments { s.comments with before := c } p q r u v w

theorem body_modHead {text lo l hi} (c : List Comment) (h : Body text lo l hi) : Body text lo (modHead (setBefore c) l) hi := by
  cases l with
  | nil => exact h
  | cons x l => exact body_before c h

theorem body_addLast {text lo l m hi} (pos : Pos) (tok : Bytes) (h : Body text lo l m) (hp : m ≤ pos.byte) (ha : At text pos b!"#")
    (hh : pos.byte ≤ hi) : Body text lo (modLast (fun x => setAfter (x.comments.after ++ [⟨pos, tok⟩]) x) l) hi := by
  induction l generalizing lo with
  | nil => cases h; exact .nil (by omega)
  | cons x l ih =>
    cases h with
    | cons p q r u v w =>
      cases l with
      | nil =>
        have := w.le
        exact Body.withComments { x.comments with after := _ } p q r u
          (v.append (.cons (c := ⟨pos, tok⟩) (by show _ ≤ pos.byte; omega) ha (.nil (Nat.le_refl _)))) (.nil hh)
      | cons y l => exact .cons p q r u v (ih w)

theorem body_clearLast {text lo l hi} (h : Body text lo l hi) : Body text lo (modLast (setAfter []) l) hi := by
  induction l generalizing lo with
  | nil => exact h
  | cons x l ih =>
    cases h with
    | cons p q r u v w =>
      cases l with
      | nil => exact Body.withComments { x.comments with after := [] } p q r u (.nil v.le) w
      | cons y l => exact .cons p q r u v (ih w)

theorem body_dropLast {text lo l hi} (h : Body text lo l hi) : Body text lo l.dropLast hi := by
  induction l generalizing lo with
  | nil => exact h
  | cons x l ih =>
    cases h with
    | cons p q r u v w =>
      cases l with
      | nil => exact .nil (by have := w.le; have := v.le; have := q.span; omega)
      | cons y l => exact .cons p q r u v (ih w)

theorem nested_block {text c pos} (ha : At text pos b!"#") : Nested text (.commentBlock c pos) :=
  .mk _ ha (Nat.le_refl _) nofun

theorem modLast_snoc (f : Expr → Expr) (l : List Expr) (x : Expr) : modLast f (l ++ [x]) = l ++ [f x] := by
  induction l with
  | nil => rfl
  | cons y l ih =>
    cases l with
    | nil => rfl
    | cons z l => exact congrArg (y :: ·) ih

theorem body_addComment {text lo m hi} {v : Val} (pos : Pos) (tok : Bytes) (h : Body text lo v.exprs m) (hp : m ≤ pos.byte)
    (ha : At text pos b!"#") (hh : pos.byte ≤ hi) : Body text lo (addComment v pos tok).exprs hi := by
  unfold addComment
  dsimp only
  split
  · exact body_addLast pos tok h hp ha hh
  · refine body_addLast pos tok (m := pos.byte) (h.append (.cons ?_ (nested_block ha) (Nat.le_refl _) (.simple rfl) (.nil (Nat.le_refl _)) (.nil ?_)))
      (Nat.le_refl _) ha hh
    · exact hp
    · exact Nat.le_refl _

theorem modLast_ne {f : Expr → Expr} {l : List Expr} (h : l ≠ []) : modLast f l ≠ [] := by
  cases l with
  | nil => exact absurd rfl h
  | cons x l => cases l <;> simp [modLast]

theorem addComment_ne {v : Val} (pos : Pos) (tok : Bytes) (h : v.last = true → v.exprs ≠ []) : (addComment v pos tok).exprs ≠ [] := by
  unfold addComment
  dsimp only
  split
  · rename_i hl; exact modLast_ne (h hl)
  · exact modLast_ne (by simp)

theorem body_addStmt {text lo m hi} {v1 v2 : Val} (h1 : Body text lo v1.exprs m) (h2 : Body text m v2.exprs hi) :
    Body text lo (addStmt v1 v2).exprs hi := by
  unfold addStmt
  split
  · split
    · exact h1.append h2
    · split
      · exact (body_dropLast h1).append (body_modHead _ h2)
      · exact (body_clearLast h1).append (body_modHead _ h2)
  · exact h1.append h2

theorem addStmt_ne {v1 v2 : Val} (h : v2.exprs ≠ []) : (addStmt v1 v2).exprs ≠ [] := by
  have h' : ∀ c, modHead (setBefore c) v2.exprs ≠ [] := by
    intro c
    cases hv : v2.exprs with
    | nil => exact absurd hv h
    | cons x l => simp [modHead]
  unfold addStmt
  split
  · split
    · simp [h]
    · split <;> simp [h']
  · simp [h]

theorem addStmt_last {v1 v2 : Val} : (addStmt v1 v2).last = v2.last := by
  unfold addStmt
  split
  · split
    · rfl
    · split <;> rfl
  · rfl

theorem body_mkSuite {text lo m1 m2 hi} {v1 v2 v4 v : Val} (h1 : Body text lo v2.exprs m1) (hm : m1 ≤ m2) (h2 : Body text m2 v4.exprs hi)
    (hne : v4.exprs ≠ []) (h : mkSuite v1 v2 v4 = some v) : Body text lo v.exprs hi ∧ v.exprs ≠ [] := by
  have hh1 := h1.mono (Nat.le_refl _) hm
  have hle := hh1.le
  unfold mkSuite at h
  split at h
  · cases h
    exact ⟨h2.mono hle (Nat.le_refl _), hne⟩
  · split at h
    · rename_i s l c hs hc
      rw [hs] at h2
      split at h
      · cases h
        exact ⟨(body_dropLast hh1).append (body_before _ h2), by simp⟩
      · cases h
        refine ⟨?_, by simp [hne]⟩
        show Body text lo (v2.exprs ++ v4.exprs) hi
        rw [hs]
        exact hh1.append h2
    · cases h

/-! ### Comments that move out of a body -/

theorem splitDedented_eq {ind : Nat} {l a b : List Comment} (h : splitDedented ind l = some (a, b)) : l = a ++ b ∧ b ≠ [] := by
  induction l generalizing a b with
  | nil => cases h
  | cons c l ih =>
    rw [splitDedented] at h
    split at h
    · cases h; exact ⟨rfl, by simp⟩
    · cases hs : splitDedented ind l with
      | none => rw [hs] at h; cases h
      | some q =>
        obtain ⟨a', b'⟩ := q
        rw [hs] at h
        cases h
        obtain ⟨h1, h2⟩ := ih hs
        exact ⟨by rw [h1]; rfl, h2⟩

theorem body_extractLoop {text lo l hi} (ind : Nat) (first : Bool) (h : Body text lo l hi) :
    ∃ m, Body text lo (extractLoop ind first l).1 m ∧ Body text m (extractLoop ind first l).2 hi := by
  induction l generalizing lo first with
  | nil => exact ⟨lo, .nil (Nat.le_refl _), h⟩
  | cons s l ih =>
    cases h with
    | cons p q r u v w =>
      rw [extractLoop]
      cases hs : splitDedented ind s.comments.after with
      | none =>
        dsimp only
        obtain ⟨m, h1, h2⟩ := ih false w
        exact ⟨m, .cons p q r u v h1, h2⟩
      | some ab =>
        obtain ⟨stay, go⟩ := ab
        dsimp only
        obtain ⟨he, hg⟩ := splitDedented_eq hs
        rw [he] at v
        obtain ⟨m, v1, v2⟩ := v.split
        have hcb : ∀ {lo'}, lo' ≤ m → Body text lo' (.commentBlock { after := go } ((go.headD ⟨{}, []⟩).start) :: l) hi := by
          intro lo' hlo
          cases go with
          | nil => exact absurd rfl hg
          | cons c go =>
            cases v2 with
            | cons a b d =>
              exact .cons (k := c.start.byte) (by show lo' ≤ c.start.byte; omega) (nested_block b) (Nat.le_refl _) (.simple rfl)
                (.cons (Nat.le_refl _) b d) w
        split
        · refine ⟨lo, .nil (Nat.le_refl _), hcb ?_⟩
          have := v1.le; have := q.span; omega
        · exact ⟨m, Body.withComments { s.comments with after := stay } p q r u v1 (.nil (Nat.le_refl _)), hcb (Nat.le_refl _)⟩

theorem extractLoop_head {ind : Nat} {s : Expr} {l : List Expr} : ∃ s' l', (extractLoop ind true (s :: l)).1 = s' :: l' ∧ s'.startPos = s.startPos := by
  rw [extractLoop]
  cases splitDedented ind s.comments.after with
  | none => exact ⟨s, _, rfl, rfl⟩
  | some ab =>
    obtain ⟨stay, go⟩ := ab
    exact ⟨setAfter stay s, [], rfl, start_setComments _ _⟩

theorem splitAt_eq {l a b : List Expr} (h : splitAtLastStmt l = some (a, b)) : l = a ++ b ∧ b ≠ [] := by
  induction l generalizing a b with
  | nil => cases h
  | cons x l ih =>
    rw [splitAtLastStmt] at h
    cases hs : splitAtLastStmt l with
    | none =>
      rw [hs] at h
      dsimp only at h
      split at h
      · cases h
      · cases h; exact ⟨rfl, by simp⟩
    | some q =>
      obtain ⟨a', b'⟩ := q
      rw [hs] at h
      cases h
      obtain ⟨h1, h2⟩ := ih hs
      exact ⟨by rw [h1]; rfl, h2⟩

theorem body_extract {text lo x l hi} (h : Body text lo (x :: l) hi) :
    ∃ m x' l', (extractBody (x :: l)).1 = x' :: l' ∧ x'.startPos = x.startPos ∧ Body text lo (x' :: l') m ∧
      Body text m (extractBody (x :: l)).2 hi := by
  rw [extractBody]
  cases hs : splitAtLastStmt (x :: l) with
  | none => exact ⟨hi, x, l, rfl, rfl, h, .nil (Nat.le_refl _)⟩
  | some ab =>
    obtain ⟨a, b⟩ := ab
    obtain ⟨he, hb⟩ := splitAt_eq hs
    dsimp only
    rw [he] at h
    obtain ⟨m, h1, h2⟩ := h.split
    obtain ⟨m', h3, h4⟩ := body_extractLoop x.startPos.lineRune true h2
    cases b with
    | nil => exact absurd rfl hb
    | cons s b =>
      obtain ⟨s', l', e1, e2⟩ := extractLoop_head (ind := x.startPos.lineRune) (s := s) (l := b)
      cases a with
      | nil =>
        cases he
        exact ⟨m', s', l', e1, e2, by rw [← e1]; exact h3.mono h1.le (Nat.le_refl _), h4⟩
      | cons y a =>
        cases he
        exact ⟨m', x, _, rfl, rfl, h1.append h3, h4⟩

/-! ### Nodes with a body -/

theorem stmtsEnd_eq {text : Bytes} {l : List Expr} (h : ∀ x ∈ l, Nested text x) : stmtsEnd l = endPosLast l := by
  induction l with
  | nil => rfl
  | cons x l ih =>
    cases l with
    | nil => simp [stmtsEnd, endPosLast, (h x (by simp)).notNil]
    | cons y l =>
      have hy := (h y (by simp)).notNil
      rw [stmtsEnd, endPosLast]
      · simp only [List.all_cons, hy, Bool.false_and, Bool.false_eq_true, if_false]
        exact ih fun z hz => h z (List.mem_cons_of_mem _ hz)
      · simp

/-- the body at the end of a node, and its end -/
theorem order_body {text : Bytes} {lo m hi : Nat} {a b : List Expr} (h1 : InOrder lo a m) (h2 : Body text m b hi) (hb : b ≠ []) :
    InOrder lo (a ++ b) (endPosLast b).byte ∧ (endPosLast b).byte ≤ hi := by
  have := h2.order.last hb
  exact ⟨h1.append this.1, this.2⟩

/-- replacing the body at the end of a node -/
theorem order_swap {text : Bytes} {lo hi m k : Nat} {a : List Expr} {x x' : Expr} {l l' : List Expr} (h : InOrder lo (a ++ x :: l) hi)
    (hs : x'.startPos = x.startPos) (hb : Body text k (x' :: l') m) :
    InOrder lo (a ++ x' :: l') (endPosLast (x' :: l')).byte ∧ (endPosLast (x' :: l')).byte ≤ m := by
  obtain ⟨q, h1, h2⟩ := h.split
  exact order_body h1 (hb.rebase (lo' := q) (by rw [hs]; exact h2.1)) (by simp)

theorem nested_def {text : Bytes} {c p n ps b q f g t} (hl : At text p b!"def" ∧ At text q b!":" ∧ b ≠ [])
    (h1 : InOrder p.byte (ps ++ opt t ++ b) (endPosLast b).byte) (h2 : ∀ x ∈ ps ++ opt t ++ b, Nested text x) :
    Nested text (.defS c p n ps b q f g t) := .mk _ hl h1 h2

theorem nested_for {text : Bytes} {c p v x b} (hl : At text p b!"for" ∧ b ≠ [])
    (h1 : InOrder p.byte ([v, x] ++ b) (endPosLast b).byte) (h2 : ∀ y ∈ [v, x] ++ b, Nested text y) :
    Nested text (.forS c p v x b) := .mk _ hl
      (by
        have : (Expr.forS c p v x b).endPos = endPosLast b := stmtsEnd_eq fun y hy => h2 y (List.mem_append_right _ hy)
        rw [this]; exact h1) h2

theorem if_end {text : Bytes} {c p x t e f} (hf : f ≠ []) (h2 : ∀ y ∈ f, Nested text y) :
    (Expr.ifS c p x t e f).endPos = endPosLast f := by
  have : (Expr.ifS c p x t e f).endPos = if f.isEmpty then stmtsEnd t else stmtsEnd f := rfl
  rw [this, if_neg (by simpa using hf), stmtsEnd_eq h2]

theorem if_end0 {text : Bytes} {c p x t e} (h2 : ∀ y ∈ t, Nested text y) : (Expr.ifS c p x t e []).endPos = endPosLast t := by
  have : (Expr.ifS c p x t e []).endPos = stmtsEnd t := rfl
  rw [this, stmtsEnd_eq h2]

/-- an if statement -/
def isIf : Expr → Bool
  | .ifS .. => true
  | _ => false

/-- what remains of a statement and the comments taken out of it -/
structure Cut (text : Bytes) (e : Expr) (k : Nat) (e' : Expr) (cbs : List Expr) (m : Nat) : Prop where
  start : e'.startPos = e.startPos
  comments : e'.comments = e.comments
  nested : Nested text e'
  end_ : e'.endPos.byte ≤ m
  stm : Stm text e' m
  rest : Body text m cbs k
  ifs : isIf e' = isIf e

theorem ne_cons {l : List Expr} (h : l ≠ []) : ∃ x r, l = x :: r := by
  cases l with
  | nil => exact absurd rfl h
  | cons x r => exact ⟨x, r, rfl⟩

theorem cut_else {text : Bytes} {c p x t e f k lo} (hn : Nested text (.ifS c p x t e f)) (hb : Body text lo f k) (hf : f ≠ []) :
    ∃ m, Cut text (.ifS c p x t e f) k (.ifS c p x t e (extractBody f).1) (extractBody f).2 m := by
  obtain ⟨y, r, rfl⟩ := ne_cons hf
  obtain ⟨m, y', r', e1, e2, h1, h2⟩ := body_extract hb
  rw [e1]
  have ho := hn.order
  rw [if_end hf hb.nested] at ho
  have ho' := order_swap (a := x :: t) ho e2 h1
  have he := if_end (c := c) (p := p) (x := x) (t := t) (e := e) (f := y' :: r') (by simp) h1.nested
  refine ⟨m, rfl, rfl, .mk _ ⟨hn.located.1, hn.located.2.1, fun _ => hn.located.2.2 hf⟩ (by rw [he]; exact ho'.1) ?_, by rw [he]; exact ho'.2,
    .else_ h1 (by simp), h2, rfl⟩
  intro z hz
  have hz' : z ∈ x :: (t ++ (y' :: r')) := hz
  rcases List.mem_append.1 (show z ∈ (x :: t) ++ (y' :: r') from hz') with hz | hz
  · exact hn.kid z (List.mem_append_left (bs := y :: r) hz)
  · exact h1.nested z hz

theorem elifCase {text : Bytes} {n : Nat} {k : Nat} {c p y t e c2 p2 x2 t2 e2 f2}
    (ih : ∀ {e k}, Nested text e → e.endPos.byte ≤ k → Stm text e k → ∃ m, Cut text e k (extractTrailing n e).1 (extractTrailing n e).2 m)
    (hn : Nested text (.ifS c p y t e [.ifS c2 p2 x2 t2 e2 f2])) (hx : Nested text (.ifS c2 p2 x2 t2 e2 f2))
    (he : (Expr.ifS c p y t e [.ifS c2 p2 x2 t2 e2 f2]).endPos.byte ≤ k) (hs : Stm text (.ifS c2 p2 x2 t2 e2 f2) k) :
    ∃ m, Cut text (.ifS c p y t e [.ifS c2 p2 x2 t2 e2 f2]) k (extractTrailing (n + 1) (.ifS c p y t e [.ifS c2 p2 x2 t2 e2 f2])).1
      (extractTrailing (n + 1) (.ifS c p y t e [.ifS c2 p2 x2 t2 e2 f2])).2 m := by
  have hx1 : ∀ z ∈ [Expr.ifS c2 p2 x2 t2 e2 f2], Nested text z := fun z hz => by rw [List.mem_singleton.1 hz]; exact hx
  rw [if_end (by simp) hx1] at he
  obtain ⟨m, cut⟩ := ih hx he hs
  rw [extractTrailing]
  dsimp only
  generalize hr : extractTrailing n (.ifS c2 p2 x2 t2 e2 f2) = r at cut ⊢
  obtain ⟨x', cb⟩ := r
  dsimp only at cut ⊢
  have hx2 : ∀ z ∈ [x'], Nested text z := fun z hz => by rw [List.mem_singleton.1 hz]; exact cut.nested
  have he' := if_end (c := c) (p := p) (x := y) (t := t) (e := e) (f := [x']) (by simp) hx2
  have ho := hn.order
  obtain ⟨q, h1, h2⟩ := InOrder.split (a := y :: t) (b := [.ifS c2 p2 x2 t2 e2 f2]) ho
  have h3 : InOrder q [x'] x'.endPos.byte := ⟨by rw [cut.start]; exact h2.1, cut.nested.span, Nat.le_refl _⟩
  refine ⟨m, rfl, rfl, .mk _ ⟨hn.located.1, hn.located.2.1, fun _ => hn.located.2.2 (by simp)⟩ (by rw [he']; exact h1.append h3) ?_,
    by rw [he']; exact cut.end_, ?_, cut.rest, rfl⟩
  · intro z hz
    rcases List.mem_append.1 (show z ∈ (y :: t) ++ [x'] from hz) with hz | hz
    · exact hn.kid z (List.mem_append_left (as := y :: t) (bs := [.ifS c2 p2 x2 t2 e2 f2]) hz)
    · exact hx2 z hz
  · have hi := cut.ifs
    have hst := cut.stm
    cases x' <;> first | exact .elif hst | cases hi

theorem cut_extract {text : Bytes} : ∀ (n : Nat) {e k}, Nested text e → e.endPos.byte ≤ k → Stm text e k →
    ∃ m, Cut text e k (extractTrailing n e).1 (extractTrailing n e).2 m := by
  intro n
  induction n with
  | zero => exact fun {e k} hn he hs => ⟨k, rfl, rfl, hn, he, hs, .nil (Nat.le_refl _), rfl⟩
  | succ n ih =>
    intro e k hn he hs
    cases hs with
    | simple h =>
      refine ⟨k, ?_⟩
      have : extractTrailing (n + 1) e = (e, []) := by cases e <;> first | rfl | cases h
      rw [this]
      exact ⟨rfl, rfl, hn, he, .simple h, .nil (Nat.le_refl _), rfl⟩
    | @defS c p nm ps b q f g t lo _ hb =>
      obtain ⟨x, l, rfl⟩ := ne_cons hn.located.2.2
      obtain ⟨m, x', l', e1, e2, h1, h2⟩ := body_extract hb
      rw [extractTrailing]
      dsimp only
      rw [e1]
      have ho := order_swap (a := ps ++ opt t) (by have := hn.order; exact this) e2 h1
      refine ⟨m, rfl, rfl, nested_def ⟨hn.located.1, hn.located.2.1, by simp⟩ ho.1 ?_, ho.2, .defS h1, h2, rfl⟩
      intro z hz
      rcases List.mem_append.1 hz with hz | hz
      · exact hn.kid z (List.mem_append_left _ hz)
      · exact h1.nested z hz
    | @forS c p v y b lo _ hb =>
      obtain ⟨x, l, rfl⟩ := ne_cons hn.located.2
      obtain ⟨m, x', l', e1, e2, h1, h2⟩ := body_extract hb
      rw [extractTrailing]
      dsimp only
      rw [e1]
      have ho := order_swap (a := [v, y]) (by have := hn.order; exact this) e2 h1
      have hk : ∀ z ∈ [v, y] ++ x' :: l', Nested text z := by
        intro z hz
        rcases List.mem_append.1 hz with hz | hz
        · exact hn.kid z (List.mem_append_left (bs := x :: l) hz)
        · exact h1.nested z hz
      have he : (Expr.forS c p v y (x' :: l')).endPos = endPosLast (x' :: l') := stmtsEnd_eq h1.nested
      exact ⟨m, rfl, rfl, nested_for ⟨hn.located.1, by simp⟩ ho.1 hk, by rw [he]; exact ho.2, .forS h1, h2, rfl⟩
    | @ifS c p y t e lo _ hb =>
      obtain ⟨x, l, rfl⟩ := ne_cons hn.located.2.1
      obtain ⟨m, x', l', e1, e2, h1, h2⟩ := body_extract hb
      rw [extractTrailing]
      dsimp only
      rw [e1]
      have ho : InOrder p.byte ([y] ++ (x :: l)) (Expr.ifS c p y (x :: l) e []).endPos.byte := by
        have := hn.order
        simpa [kids, Expr.startPos] using this
      have ho := order_swap (a := [y]) ho e2 h1
      have he := if_end0 (c := c) (p := p) (x := y) (t := x' :: l') (e := e) h1.nested
      refine ⟨m, rfl, rfl, .mk _ ⟨hn.located.1, by simp, fun h => absurd rfl h⟩ (by rw [he]; simpa [kids, Expr.startPos] using ho.1) ?_,
        by rw [he]; exact ho.2, .ifS h1, h2, rfl⟩
      intro z hz
      have hz : z ∈ y :: (x' :: l' ++ []) := hz
      rw [List.append_nil] at hz
      rcases List.mem_cons.1 hz with rfl | hz
      · exact hn.kid z (List.mem_cons_self ..)
      · exact h1.nested z hz
    | @elif c p y t e c2 p2 x2 t2 e2 f2 _ hs2 =>
      have hx : Nested text (.ifS c2 p2 x2 t2 e2 f2) := hn.kid _ (List.mem_cons_of_mem _ (List.mem_append_right _ (List.mem_singleton.2 rfl)))
      exact elifCase ih hn hx he hs2
    | @else_ c p y t e f lo _ hb hf =>
      by_cases hc : ∃ c2 p2 x2 t2 e2 f2, f = [.ifS c2 p2 x2 t2 e2 f2]
      · obtain ⟨c2, p2, x2, t2, e2, f2, rfl⟩ := hc
        cases hb with
        | cons a b d g h i => exact elifCase ih hn b he (g.mono (by have := h.le; have := i.le; omega))
      · rw [extractTrailing]
        · dsimp only
          exact cut_else hn hb hf
        · exact hf
        · exact fun c2 p2 x2 t2 e2 f2 h => hc ⟨c2, p2, x2, t2, e2, f2, h⟩

end Verif.Props.Spans
