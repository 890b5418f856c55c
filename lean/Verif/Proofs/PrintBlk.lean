import Verif.Proofs.PrintComm
/-
Printed statements with comments can be read back: lists of statements and blocks.
-/
namespace Verif.Round
open Verif Verif.Syntax Verif.Lexer Verif.Print Verif.Parser Verif.Grammar Verif.Props.Grammar

/-- the text, with its line end, reads as tokens with property `P` -/
def LnC (m : Nat) (P : List ATok → Prop) (t : Bytes) : Prop :=
  ∃ core w aw, t = core ++ w ∧ StartOK core ∧ End w aw ∧ ∀ w aw, End w aw → ∃ as, LSw m core w as ∧ P as

/-- the text, with its line end, reads as the statements `l` at indentation `m` -/
def Blk (m : Nat) (l : List Expr) (t : Bytes) : Prop :=
  (stmtsOf l = [] ∧ ∃ ag, Fil (spaces m ++ t) ag) ∨ ∃ g ag t', Fil g ag ∧ spaces m ++ t = g ++ (spaces m ++ t') ∧ LnC m (ExtC l) t'

theorem LnC.mono {m P Q t} (h : LnC m P t) (h' : ∀ as, P as → Q as) : LnC m Q t := by
  obtain ⟨core, w, aw, a, b, c, d⟩ := h
  exact ⟨core, w, aw, a, b, c, fun w aw hw => by obtain ⟨as, x, y⟩ := d w aw hw; exact ⟨as, x, h' as y⟩⟩

theorem LnC.start {m P t} (h : LnC m P t) : StartOK t := by
  obtain ⟨core, w, aw, rfl, b, _⟩ := h
  exact b.app

theorem LnC.fil {m P t g ag} (h : LnC m P t) (hg : Fil g ag) : LnC m P (t ++ g) := by
  obtain ⟨core, w, aw, rfl, b, c, d⟩ := h
  exact ⟨core, w ++ g, _, by simp, b, c.app hg, d⟩

theorem LnC.seq {m P Q t1 t2 g ag} (h1 : LnC m P t1) (hg : Fil g ag) (h2 : LnC m Q t2) :
    LnC m (fun as => ∃ a1 a2, as = a1 ++ a2 ∧ P a1 ∧ Q a2) (t1 ++ (g ++ (spaces m ++ t2))) := by
  obtain ⟨core1, w1, aw1, rfl, b1, c1, d1⟩ := h1
  obtain ⟨core2, w2, aw2, rfl, b2, c2, d2⟩ := h2
  refine ⟨core1 ++ ((w1 ++ g) ++ (spaces m ++ core2)), w2, aw2, by simp, b1.app, c2, fun w aw hw => ?_⟩
  obtain ⟨a1, l1, p1⟩ := d1 _ _ (c1.app hg)
  obtain ⟨a2, l2, p2⟩ := d2 w aw hw
  exact ⟨a1 ++ a2, lsw_seq l1 b2 l2, a1, a2, rfl, p1, p2⟩

theorem fil_blank : ∀ j, ∃ ag, Fil (List.replicate j 10) ag := by
  intro j
  induction j with
  | zero => exact ⟨_, .nil⟩
  | succ j ih => obtain ⟨ag, h⟩ := ih; exact ⟨_, .blank _ _ h⟩

theorem Blk.fil {m l t g ag} (h : Blk m l t) (hg : Fil g ag) : Blk m l (t ++ g) := by
  rcases h with ⟨h1, a, h2⟩ | ⟨g1, a1, t', h1, h2, h3⟩
  · exact .inl ⟨h1, _, by rw [← List.append_assoc]; exact h2.app hg⟩
  · exact .inr ⟨g1, a1, t' ++ g, h1, by rw [← List.append_assoc, h2]; simp, h3.fil hg⟩

theorem Blk.seq {m l1 l2 t1 t2} (j : Nat) (h1 : Blk m l1 t1) (h2 : Blk m l2 t2) : Blk m (l1 ++ l2) (t1 ++ (List.replicate j 10 ++ (spaces m ++ t2))) := by
  obtain ⟨aj, hj⟩ := fil_blank j
  rcases h1 with ⟨e1, a1, f1⟩ | ⟨g1, a1, t1', f1, q1, r1⟩ <;> rcases h2 with ⟨e2, a2, f2⟩ | ⟨g2, a2, t2', f2, q2, r2⟩
  · refine .inl ⟨by rw [stmtsOf_append, e1, e2]; rfl, a1 ++ aj ++ a2, ?_⟩
    have := (f1.app hj).app f2
    simpa using this
  · refine .inr ⟨_, _, t2', (f1.app hj).app f2, ?_, r2.mono (fun as h => h.cast (by rw [stmtsOf_append, e1]; rfl))⟩
    rw [q2]; simp
  · refine .inr ⟨g1, a1, _, f1, ?_, (r1.fil (hj.app f2)).mono (fun as h => h.cast (by rw [stmtsOf_append, e2]; simp))⟩
    rw [← List.append_assoc, q1]; simp
  · refine .inr ⟨g1, a1, _, f1, ?_, (r1.seq (hj.app f2) r2).mono ?_⟩
    · rw [← List.append_assoc, q1, q2]; simp
    · rintro _ ⟨x, y, rfl, hx, hy⟩
      exact hx.app hy

theorem LnC.simple {m s t w aw} (h : Y false .smallStmt (SE s) t) (hb : isBlock s = false) (hcb : isCommentBlock s = false) (hw : End w aw) : LnC m (ExtC [s]) (t ++ w) := by
  obtain ⟨h1, h2, as, h3, h4⟩ := h
  exact ⟨t, w, aw, rfl, h1, hw, fun w aw hw => ⟨_, lsw_simple h1 h3 hw, extC_simple h4 hb hcb hw⟩⟩

/-- the tokens of a header and a block -/
def BlockC (P : List ATok → Prop) (l : List Expr) (as : List ATok) : Prop := ∃ ah a2, as = ah ++ a2 ∧ P ah ∧ Suite l a2

/-- a header and a block -/
theorem LnC.block {m P h e ae l t} (hh : YP false P h) (he : End e ae) (hl : stmtsOf l ≠ []) (hb : Blk (m + 4) l t) : LnC m (BlockC P l) (h ++ (e ++ (spaces (m + 4) ++ t))) := by
  rcases hb with ⟨q, _⟩ | ⟨g, ag, t', hg, q, core, w, aw, rfl, b, c, d⟩
  · exact absurd q hl
  obtain ⟨h1, h2, ah, h3, h4⟩ := hh
  refine ⟨h ++ ((e ++ g) ++ (spaces (m + 4) ++ core)), w, aw, by rw [q]; simp, h1.app, c, fun w aw hw => ?_⟩
  obtain ⟨as, l1, p1⟩ := d w aw hw
  exact ⟨_, lsw_block h1 h3 (he.app hg) b l1, ah, _, rfl, h4, c_suite (he.app hg) p1.stmts hl⟩

/-! ## The printer -/

/-- what the printer has written, whatever comments and line end follow -/
def BlkT (m : Nat) (l : List Expr) (t : Bytes) (p : List Comment) : Prop := ∀ k q, ComsOK q → Blk m l (t ++ nlText k (p ++ q))
def LnT (m : Nat) (P : List ATok → Prop) (t : Bytes) (p : List Comment) : Prop := ∀ k q, ComsOK q → LnC m P (t ++ nlText k (p ++ q))

theorem BlkT.end {m l t p} (h : BlkT m l t p) (k : Nat) : Blk m l (t ++ nlText k p) := by
  have := h k [] comsOK_nil
  rwa [List.append_nil] at this

theorem LnT.end {m P t p} (h : LnT m P t p) (k : Nat) : LnC m P (t ++ nlText k p) := by
  have := h k [] comsOK_nil
  rwa [List.append_nil] at this

theorem LnT.mono {m P Q t p} (h : LnT m P t p) (h' : ∀ as, P as → Q as) : LnT m Q t p := fun k q hq => (h k q hq).mono h'

/-- a comment line, with more comments at its end -/
theorem fil_comment (m k : Nat) {c : Bytes} {q : List Comment} (hc : ComText c) (hq : ComsOK q) : ∃ ag, Fil (spaces m ++ (c ++ nlText k q)) ag := by
  cases q with
  | nil => exact ⟨_, Fil.com m c [] [] hc .nil⟩
  | cons d q =>
    obtain ⟨g, ag, e, hg⟩ := comLines_fil k (l := q) (fun x hx => hq x (by simp [hx]))
    obtain ⟨r1, rfl, h1⟩ := hc
    obtain ⟨r2, e2, h2⟩ := (comText_ok (hq d (by simp))).1
    have h3 : ComText (35 :: r1 ++ (32 :: 32 :: comText d)) := ⟨r1 ++ (32 :: 32 :: comText d), rfl, by rw [e2]; simp [h1, h2]⟩
    refine ⟨CM (35 :: r1 ++ (32 :: 32 :: comText d)) :: NL :: ag, ?_⟩
    · have := Fil.com m _ g ag h3 hg
      show Fil (spaces m ++ (35 :: r1 ++ (32 :: 32 :: (comText d ++ comLines k q)))) _
      rw [e]
      simpa using this

/-- what the printer does with statements -/
def PrC (pr : Pr) : Prop :=
  ∀ s st, OkStmtC s → tupleTight s = true → Clean st → Fresh st → st.depth = 0 →
    (isCommentBlock s = false → AddsC st (pr s 0 st) (BlkT st.margin [s])) ∧ (isCommentBlock s = true → pr s 0 st = st ∨ pr s 0 st = { st with bad := true })

theorem after_spec {st0 : St} {m : Nat} {L : List Expr} : ∀ (l : List Comment) (st : St), ComsOK l → st.needsNL = true → st.margin = m → AddsC st0 st (BlkT m L) →
    AddsC st0 (afterComments l st) (BlkT m L) ∧ (afterComments l st).needsNL = true ∧ Keep st (afterComments l st) := by
  intro l
  induction l with
  | nil => intro st _ hn hm h; exact ⟨h, hn, rfl, rfl⟩
  | cons c l ih =>
    intro st hok hn hm h
    have hc := comText_ok (hok c (by simp))
    have e : newlineIfNeeded st = newline st := by unfold newlineIfNeeded; rw [if_pos hn]
    unfold afterComments
    rw [e]
    have k1 := keep_newline st
    have n1 := h.newline
    rw [hm] at n1
    have h2 : AddsC st0 (softNewline (emit (comText c) (newline st))) (BlkT m L) := by
      refine ⟨?_, fun hb => ?_⟩
      · show ComsOK (newline st).comment
        rw [n1.1.1]
        exact comsOK_nil
      · obtain ⟨b0, s, es, s0, p, rfl, hp, hq⟩ := n1.2 hb
        refine ⟨b0, s0 ++ (nlText m p ++ spaces m) ++ comText c, ?_, hc.2.app, fun k q hcq => ?_⟩
        · show (comText c).reverse ++ (newline st).out = _
          rw [es]; simp
        · show Blk m L (s0 ++ (nlText m p ++ spaces m) ++ comText c ++ nlText k ((newline st).comment ++ q))
          rw [n1.1.1]
          obtain ⟨ag, hg⟩ := fil_comment m k hc.1 hcq
          have := (hq.end m).fil hg
          simpa using this
    obtain ⟨a1, a2, a3⟩ := ih (softNewline (emit (comText c) (newline st))) (fun x hx => hok x (by simp [hx])) rfl (k1.2.trans hm) h2
    exact ⟨a1, a2, Keep.trans (b := softNewline (emit (comText c) (newline st))) k1 a3⟩

theorem OkStmtC.isNil {e : Expr} (h : OkStmtC e) : e.isNil = false := by
  cases h with
  | simple _ _ h _ =>
    have := h.isNil
    cases e <;> first | rfl | (cases this)
  | _ => rfl

theorem OkStmtC.after {e : Expr} (h : OkStmtC e) : ComsOK e.comments.after := by
  cases h with
  | simple _ _ _ h => exact h.2.2
  | block _ _ _ _ _ h => exact h
  | def_ _ _ _ _ _ _ _ _ _ h => exact h.2.2
  | for_ _ _ _ _ _ h => exact h.2.2
  | if_ _ _ _ _ _ _ h => exact h.2.2

theorem OkStmtC.blockAfter {e : Expr} (h : OkStmtC e) (hb : isCommentBlock e = true) : e.comments.after ≠ [] := by
  cases h with
  | simple _ _ h _ =>
    have := h.noBlock
    rw [isCommentBlock_set, hb] at this
    cases this
  | block _ _ _ _ h _ => exact h
  | _ => cases hb

/-- one statement of a list -/
theorem one_spec {pr : Pr} (hS : PrC pr) (hk : ∀ e o st, Keep st (pr e o st)) {s : Expr} {st : St} (hok : OkStmtC s) (ht : tupleTight s = true) (hc : Clean st) (hf : Fresh st)
    (hd : st.depth = 0) :
    AddsC st (afterComments s.comments.after (if isCommentBlock s then pr s 0 st else softNewline (pr s 0 st))) (BlkT st.margin [s]) ∧
      (afterComments s.comments.after (if isCommentBlock s then pr s 0 st else softNewline (pr s 0 st))).needsNL = true ∧
      Keep st (afterComments s.comments.after (if isCommentBlock s then pr s 0 st else softNewline (pr s 0 st))) := by
  obtain ⟨h1, h2⟩ := hS s st hok ht hc hf hd
  cases hb : isCommentBlock s with
  | false =>
    simp only [Bool.false_eq_true, if_false]
    have k := hk s 0 st
    obtain ⟨a, b, c⟩ := after_spec s.comments.after (softNewline (pr s 0 st)) hok.after rfl k.2 (h1 hb)
    exact ⟨a, b, Keep.trans (b := softNewline (pr s 0 st)) k c⟩
  | true =>
    simp only [if_true]
    have hne := hok.blockAfter hb
    have hcs := hok.after
    generalize s.comments.after = l at hne hcs
    cases l with
    | nil => exact absurd rfl hne
    | cons c l =>
      have hct := comText_ok (hcs c (by simp))
      have key : ∀ st1 : St, st1 = st ∨ st1 = { st with bad := true } → AddsC st (afterComments (c :: l) st1) (BlkT st.margin [s]) ∧ (afterComments (c :: l) st1).needsNL = true ∧
          Keep st (afterComments (c :: l) st1) := by
        intro st1 h1
        have hn : newlineIfNeeded st1 = st1 := by
          unfold newlineIfNeeded
          rcases h1 with rfl | rfl <;> rw [if_neg (by simp [hc.2])]
        unfold afterComments
        rw [hn]
        have h3 : AddsC st (softNewline (emit (comText c) st1)) (BlkT st.margin [s]) := by
          rcases h1 with rfl | rfl
          · refine ⟨by show ComsOK st1.comment; rw [hc.1]; exact comsOK_nil, fun hb' => ⟨hb', comText c, rfl, hct.2, fun k q hcq => ?_⟩⟩
            show Blk _ _ (comText c ++ nlText k (st1.comment ++ q))
            rw [hc.1]
            exact .inl ⟨stmtsOf_cons_block hb, fil_comment _ k hct.1 hcq⟩
          · exact ⟨by show ComsOK st.comment; rw [hc.1]; exact comsOK_nil, fun hb' => by cases hb'⟩
        have hm : (softNewline (emit (comText c) st1)).margin = st.margin := by rcases h1 with rfl | rfl <;> rfl
        have hd1 : (softNewline (emit (comText c) st1)).depth = st.depth := by rcases h1 with rfl | rfl <;> rfl
        obtain ⟨a1, a2, a3⟩ := after_spec l (softNewline (emit (comText c) st1)) (fun x hx => hcs x (by simp [hx])) rfl hm h3
        exact ⟨a1, a2, a3.1.trans hd1, a3.2.trans hm⟩
      exact key _ (h2 hb)

section
variable {ft : FileType} {pr : Pr} (hS : PrC pr) (hk : ∀ e o st, Keep st (pr e o st))
include hS hk

theorem loopC : ∀ (l : List Expr) (st : St), l ≠ [] → (∀ s ∈ l, OkStmtC s) → (∀ s ∈ l, tupleTight s = true) → Clean st → Fresh st → st.depth = 0 →
    AddsC st (stmtLoop ft pr l st) (BlkT st.margin l) ∧ (stmtLoop ft pr l st).needsNL = true := by
  intro l
  induction l with
  | nil => intro st h; exact absurd rfl h
  | cons s l ih =>
    intro st _ hok htt hc hf hd
    obtain ⟨h1, h2, h3⟩ := one_spec hS hk (hok s (by simp)) (htt s (by simp)) hc hf hd
    unfold stmtLoop
    dsimp only
    generalize afterComments s.comments.after (if isCommentBlock s then pr s 0 st else softNewline (pr s 0 st)) = st1 at h1 h2 h3 ⊢
    cases l with
    | nil => exact ⟨h1, h2⟩
    | cons s2 l =>
      dsimp only
      obtain ⟨j, n1, n2, n3⟩ := nls_spec (compactStmt ft (newline st1).level s s2) h1 h3.2
      generalize (if compactStmt ft (newline st1).level s s2 = true then newline st1 else newline (newline st1)) = st2 at n1 n2 n3 ⊢
      have hd2 : st2.depth = 0 := n3.1.trans (h3.1.trans hd)
      have hm2 : st2.margin = st.margin := n3.2.trans h3.2
      obtain ⟨a, b⟩ := ih st2 (by simp) (fun x hx => hok x (by simp [hx])) (fun x hx => htt x (by simp [hx])) n1.1 n2 hd2
      rw [hm2] at a
      refine ⟨n1.transC (fun _ => a) ?_, b⟩
      rintro _ t2 p hp ⟨s0, p0, rfl, hp0, hq⟩ h
      intro k q hcq
      have := (hq.end st.margin).seq j (h k q hcq)
      simpa using this

theorem statementsC {l : List Expr} {st : St} (hl : l ≠ []) (hok : ∀ s ∈ l, OkStmtC s) (htt : ∀ s ∈ l, tupleTight s = true) (hc : Clean st) (hf : Fresh st) (hd : st.depth = 0) :
    AddsC st (statements ft pr l st) (BlkT st.margin l) ∧ (statements ft pr l st).needsNL = true := by
  unfold statements
  rw [List.filter_eq_self.2 (fun x hx => by simp [(hok x hx).isNil])]
  exact loopC hS hk l st hl hok htt hc hf hd

/-- a header and an indented block -/
theorem nestedC {l : List Expr} {st0 st : St} {P : List ATok → Prop} (h : AddsC st0 st (fun t _ => YP false P t)) (hd : st.depth = 0) (hl : stmtsOf l ≠ []) (hok : ∀ s ∈ l, OkStmtC s)
    (htt : ∀ s ∈ l, tupleTight s = true) :
    AddsC st0 (nestedStatements ft pr l st) (LnT st.margin (BlockC P l)) ∧ Mid (nestedStatements ft pr l st) st.margin := by
  have hl' : l ≠ [] := fun e => hl (by rw [e]; rfl)
  have kk := keep_nested (ft := ft) hk l st
  unfold nestedStatements at kk ⊢
  dsimp only at kk ⊢
  have n0 : AddsC st0 { st with margin := st.margin + nestedIndentation, level := st.level + 1 } (fun t _ => YP false P t) := h
  have n1 := n0.newline
  have nf := fresh_newline { st with margin := st.margin + nestedIndentation, level := st.level + 1 }
  have k1 := keep_newline { st with margin := st.margin + nestedIndentation, level := st.level + 1 }
  have hd1 : (newline { st with margin := st.margin + nestedIndentation, level := st.level + 1 }).depth = 0 := k1.1.trans hd
  have hm1 : (newline { st with margin := st.margin + nestedIndentation, level := st.level + 1 }).margin = st.margin + 4 := k1.2
  obtain ⟨a, b⟩ := statementsC (ft := ft) hS hk (st := newline { st with margin := st.margin + nestedIndentation, level := st.level + 1 }) hl' hok htt n1.1 nf hd1
  rw [hm1] at a
  refine ⟨?_, b, kk.2, kk.1.trans hd⟩
  have h2 := n1.transC (fun _ => a) (R := LnT st.margin (BlockC P l)) (by
    rintro _ t2 p hp ⟨t0, p0, rfl, hp0, hq⟩ h2 k q hcq
    obtain ⟨ae, he⟩ := nlText_end (st.margin + 4) hp0
    have := LnC.block (m := st.margin) hq he hl (h2 k q hcq)
    show LnC _ _ (t0 ++ (nlText (st.margin + 4) p0 ++ spaces (st.margin + 4)) ++ t2 ++ nlText k (p ++ q))
    simpa using this)
  exact h2

end

end Verif.Round
