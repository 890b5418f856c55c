import Verif.Proofs.IxE
import Verif.Proofs.RoundComm
/-
Printed statements with comments in every place can be read back: like Proofs/PrintC.lean, Proofs/PrintBlk.lean, Proofs/PrintStC.lean and Proofs/RoundComm.lean.
-/
namespace Verif.RoundI
open Verif Verif.Syntax Verif.Lexer Verif.Print Verif.Parser Verif.Grammar Verif.Props.Grammar Verif.Round

/-! ## Between the two kinds of printer states -/

theorem clean_of {st : St} (h : Round.Clean st) : Clean st := ⟨by rw [h.1]; exact comsOK_nil, h.2⟩

/-- comments may be pending -/
theorem Adds.toC {st st' P} (h : Adds st st' P) (he : ∀ s, P s → EndOK s) : AddsC st st' (fun s _ => P s) :=
  ⟨h.1.1, fun hb => by obtain ⟨a, s, b, c⟩ := h.2 hb; exact ⟨a, s, b, he s c, c⟩⟩

/-! ## Lines -/

/-- a text on one line (with its line breaks inside brackets or escaped), and the end of the line -/
theorem lex_line {s w : Bytes} {as aw : List ATok} (hs : StartOK s) (ht : T false s as) (hw : End w aw) {st : State} {m : Nat} {r : Bytes}
    (hr : st.rest = s ++ (w ++ (spaces m ++ r))) (hd : st.depth = 0) (hc : st.clean = true → st.indent = st.currentIndent) :
    ∃ ts st', ts.map abs = as ++ aw ∧ st'.rest = r ∧ st'.depth = 0 ∧ st'.clean = true ∧ st'.indent = m ∧ st'.indents = st.indents ∧
      ∀ ts2 stf, LexTo st' ts2 stf → LexTo st (ts ++ ts2) stf := by
  obtain ⟨x, s', rfl, hx⟩ := hs
  obtain ⟨c, w', rfl, hfc⟩ := hw.head
  obtain ⟨ts, st1, h1, h2, h3, h4, h5, h8⟩ := lx_spec (ht c hfc) { st with clean := false } (w' ++ (spaces m ++ r)) (by rw [← List.cons_append]; exact hr) ⟨hd, rfl⟩
  obtain ⟨ts2, st2, b0, b1, b2, b3, b4, b5, b6⟩ := lex_end hw (st := st1) (m := m) (r := r) (by rw [h2]; rfl) (h4.trans hd) h3.2
  refine ⟨ts ++ ts2, st2, by rw [List.map_append, h1, b0], b1, b2, b3, b4, b5.trans h5, fun ts3 stf h => ?_⟩
  rw [List.append_assoc]
  exact LexTo.skip0 (by rfl) (fun nl => lexN_first (r := s' ++ (c :: w' ++ (spaces m ++ r))) hr hx hc nl) (h8 _ _ (b6 _ _ h))

theorem lsw_simple {m : Nat} {s w : Bytes} {as aw : List ATok} (hs : StartOK s) (ht : T false s as) (hw : End w aw) : LSw m s w (as ++ aw) := by
  intro st r m' hr hr0 hd hi hc hm
  exact lex_line hs ht hw hr hd (fun h => (hc h).trans hi.symm)

/-- a header, then an indented block -/
theorem lsw_block {m : Nat} {h e body w : Bytes} {ah ae as : List ATok} (hh : StartOK h) (ht : T false h ah) (he : End e ae) (hb : StartOK body) (hl : LSw (m + 4) body w as) :
    LSw m (h ++ (e ++ (spaces (m + 4) ++ body))) w (ah ++ (ae ++ IND :: (as ++ [UNIND]))) := by
  intro st r m' hr hr0 hd hi hc hm
  obtain ⟨ts1, st2, b0, b1, b2, b3, b4, b5, b8⟩ := lex_line hh ht he (st := st) (m := m + 4) (r := body ++ (w ++ (spaces m' ++ r))) (by rw [hr]; simp) hd (fun h => (hc h).trans hi.symm)
  have hi2 : st2.currentIndent = m := by unfold State.currentIndent; rw [b5]; exact hi
  have hind : ∀ nl, lexN nl st2 = some ({ kind := K.indent, pos := st2.pos }, { st2 with indents := st2.indent :: st2.indents, clean := false }) := by
    intro nl
    obtain ⟨x, b', rfl, hx⟩ := hb
    unfold lexN
    rw [skip_start (r := b' ++ (w ++ (spaces m' ++ r))) b1 hx]
    dsimp only
    rw [if_pos (by rw [b2, b3]; rfl), if_pos (by rw [b4, hi2]; omega)]
  obtain ⟨ts3, st3, c0, c1, c2, c3, c4, c5, c8⟩ := hl { st2 with indents := st2.indent :: st2.indents, clean := false } r m' b1 hr0 b2
    (by show st2.indent = m + 4; exact b4) (by intro h; cases h) (by omega)
  have hi3 : st3.currentIndent = m + 4 := by unfold State.currentIndent; rw [c5]; exact b4
  have hdrop : st3.indents.drop 1 = st2.indents := by rw [c5]; rfl
  have hun : ∀ nl, lexN nl st3 = some ({ kind := K.unindent, pos := st3.pos }, { st3 with indents := st3.indents.drop 1 }) := by
    intro nl
    have hsk : skip (st3.rest.length + 1) st3 nl = .found st3 := by
      rcases hr0 with ⟨rfl, _⟩ | ⟨x, r', rfl, hx⟩
      · exact skip_end c1 _ _
      · exact skip_start c1 hx _ _
    unfold lexN
    rw [hsk]
    dsimp only
    have e1 : ({ st3 with indents := st3.indents.drop 1 } : State).currentIndent = m := by
      unfold State.currentIndent; dsimp only; rw [hdrop]; exact hi2
    rw [if_pos (by rw [c2, c3]; rfl), if_neg (by rw [c4, hi3]; omega), if_pos (by rw [c4, hi3]; omega), if_neg (by rw [e1, c4]; omega)]
  refine ⟨ts1 ++ ({ kind := K.indent, pos := st2.pos } :: (ts3 ++ [{ kind := K.unindent, pos := st3.pos }])), { st3 with indents := st3.indents.drop 1 }, ?_, c1, c2, c3, c4, ?_,
    fun ts stf h => ?_⟩
  · rw [List.map_append, List.map_cons, List.map_append, b0, c0]
    simp only [List.append_assoc]
    rfl
  · show st3.indents.drop 1 = _
    rw [hdrop, b5]
  · rw [List.append_assoc, List.cons_append, List.append_assoc]
    exact b8 _ _ (LexTo.tok hind (by show K.indent ≠ K.eof; decide) (c8 _ _ (LexTo.tok hun (by show K.unindent ≠ K.eof; decide) h)))

theorem lnc_simple {m s t w aw} (h : Y false .smallStmt (SE s) t) (hb : isBlock s = false) (hcb : isCommentBlock s = false) (hw : End w aw) : LnC m (ExtC [s]) (t ++ w) := by
  obtain ⟨h1, h2, as, h3, h4⟩ := h
  exact ⟨t, w, aw, rfl, h1, hw, fun w aw hw => ⟨_, lsw_simple h1 h3 hw, extC_simple h4 hb hcb hw⟩⟩

/-- a header and a block -/
theorem lnc_block {m P h e ae l t} (hh : YP false P h) (he : End e ae) (hl : stmtsOf l ≠ []) (hb : Blk (m + 4) l t) : LnC m (BlockC P l) (h ++ (e ++ (spaces (m + 4) ++ t))) := by
  rcases hb with ⟨q, _⟩ | ⟨g, ag, t', hg, q, core, w, aw, rfl, b, c, d⟩
  · exact absurd q hl
  obtain ⟨h1, h2, ah, h3, h4⟩ := hh
  refine ⟨h ++ ((e ++ g) ++ (spaces (m + 4) ++ core)), w, aw, by rw [q]; simp, h1.app, c, fun w aw hw => ?_⟩
  obtain ⟨as, l1, p1⟩ := d w aw hw
  exact ⟨_, lsw_block h1 h3 (he.app hg) b l1, ah, _, rfl, h4, c_suite (he.app hg) p1.stmts hl⟩

/-! ## Simple statements -/

section
variable {ft : FileType} {pr : Pr} (H : PrOK pr)

theorem t_kw0 {b t} {k : Kind} (h : (∃ x s, t = x :: s ∧ isIdent x = true ∧ s.all isIdent = true) ∧ identKind t = k ∧ depthChange k = 0) : T b t [W k t] := by
  intro c hc
  have := lx_kw (b := b) (s := []) (c := c) h hc (Lx.nil b c)
  simpa using this

theorem p_branch {c t p} (ht : t ∈ [b!"pass", b!"break", b!"continue"]) : Y false .smallStmt (SE (.branch c t p)) t := by
  have key : ∀ (k : Kind) (r : Nat) (_ : (FNT.smallStmt, r, [FSym.t k]) ∈ fine) (_ : r ≠ 0) (_ : ∀ v1, sem r [v1] = some { v1 with expr := .branch {} v1.tok v1.pos }),
      Gen [W k t] (.n .smallStmt) (SE (.branch c t p)) := by
    intro k r hm hr hs
    refine Gen.prod1 hm hr (gtok k t) (fun v1 q => ⟨_, hs v1, ?_⟩)
    show Same _ (.branch {} v1.tok v1.pos)
    rw [show v1.tok = t from q.tok]
    exact Same.branch _ _ _ _ _
  simp only [List.mem_cons, List.not_mem_nil, or_false] at ht
  rcases ht with rfl | rfl | rfl
  · exact ⟨⟨112, _, rfl, by unfold Start; decide⟩, ⟨b!"pas", 115, rfl, by decide⟩, _, t_kw0 ⟨⟨_, _, rfl, by decide, by decide⟩, by decide, by decide⟩,
      key _ 35 Fm.smallStmt_35 (by decide) (fun _ => rfl)⟩
  · exact ⟨⟨98, _, rfl, by unfold Start; decide⟩, ⟨b!"brea", 107, rfl, by decide⟩, _, t_kw0 ⟨⟨_, _, rfl, by decide, by decide⟩, by decide, by decide⟩,
      key _ 36 Fm.smallStmt_36 (by decide) (fun _ => rfl)⟩
  · exact ⟨⟨99, _, rfl, by unfold Start; decide⟩, ⟨b!"continu", 101, rfl, by decide⟩, _, t_kw0 ⟨⟨_, _, rfl, by decide, by decide⟩, by decide, by decide⟩,
      key _ 37 Fm.smallStmt_37 (by decide) (fun _ => rfl)⟩

include H in
theorem p_return {cm : Comments} {p x st f} (hx : x.isNil = false → OkExprN x) (ht : tupleTight x = true) (hc : Clean st) (hd : st.depth = 0) :
    Adds st (exprBody ft pr f (.returnS cm p x) 0 st) (Y false .smallStmt (SE (.returnS cm p x))) := by
  have hkw : (∃ x s, b!"return" = x :: s ∧ isIdent x = true ∧ s.all isIdent = true) ∧ identKind b!"return" = K.return_ ∧ depthChange K.return_ = 0 :=
    ⟨⟨_, _, rfl, by decide, by decide⟩, by decide, by decide⟩
  have hst : StartOK b!"return" := ⟨114, _, rfl, by unfold Start; decide⟩
  show Adds st (if x.isNil then emit b!"return" st else pr x 0 (emit b!" " (emit b!"return" st))) _
  cases hn : x.isNil with
  | true =>
    rw [isNil_eq hn]
    exact Adds.emit0 hc ⟨hst, ⟨b!"retur", 110, rfl, by decide⟩, _, t_kw0 hkw, g_return0⟩
  | false =>
    simp only [Bool.false_eq_true, if_false]
    have h1 := ((Adds.emit0 (t := b!"return") (R := (· = b!"return")) hc rfl).emit (t := b!" ") (R := (· = b!"return ")) (by rintro _ rfl; rfl)).trans
      (fun hc' => H.expr x 0 false _ (hx hn) (by omega) hc' (fun _ => .inl ⟨hd, ht⟩)) (R := fun s => ∃ s1, s = b!"return" ++ 32 :: s1 ∧ Y false .expr (SE x) s1)
      (by rintro _ s2 rfl q; exact ⟨s2, rfl, q⟩)
    refine h1.mono ?_
    rintro _ ⟨s1, rfl, q⟩
    obtain ⟨w1, as, w2, w3⟩ := YP_kw hkw q
    exact ⟨hst.app, w1, _, w2, g_return1 w3⟩

include H in
theorem p_assignStmt {cm : Comments} {p x y op lb st f} (hop : op ∈ assignOps) (hx : OkExprN x) (hy : OkExprN y) (ht : tupleTight (.assign cm x p op lb y) = true) (hc : Clean st) (hd : st.depth = 0) :
    Adds st (exprBody ft pr f (.assign cm x p op lb y) 0 st) (Y false .smallStmt (SE (.assign cm x p op lb y))) := by
  refine (p_assign (P1 := fun as => Gen as (.n .expr) (SE x)) (P2 := fun as => Gen as (.n .expr) (SE y)) H hop hc (fun _ => .inl ⟨hd, ht⟩)
    (fun st1 hc1 hd1 => H.expr x 1 false st1 hx (by omega) hc1 hd1) (fun st1 hc1 hd1 => H.expr y 2 false st1 hy (by omega) hc1 hd1)).mono (fun _ q => q.mono ?_)
  rintro _ ⟨as1, as2, rfl, q1, q2⟩
  exact g_assignStmt hop q1 q2

include H in
theorem p_augStmt {cm : Comments} {p x y op lb st f} (hop : op ∈ augOps) (hx : OkExprN x) (hy : OkExprN y) (ht : tupleTight (.binary cm x p op lb y) = true) (hc : Clean st) (hd : st.depth = 0) :
    Adds st (exprBody ft pr f (.binary cm x p op lb y) 0 st) (Y false .smallStmt (SE (.binary cm x p op lb y))) := by
  unfold tupleTight at ht
  simp only [Bool.and_eq_true] at ht
  show Adds st (withParen (opPrec op) 0 _ st) _
  rw [withParen_no (p := opPrec op) (Nat.zero_le _), opPrec_aug hop]
  refine (infix_spec (P1 := fun as => Gen as (.n .expr) (SE x)) (P2 := fun as => Gen as (.n .expr) (SE y)) (b := false) (mg := indent) (px := 0) (py := 1) hc H.keep (by simp [allOps, hop])
    (fun st1 hc1 he => H.expr x 0 false st1 hx (by omega) hc1 (fun _ => .inl ⟨he.trans hd, ht.1⟩))
    (fun st1 hc1 he => H.expr y 1 false st1 hy (by omega) hc1 (fun _ => .inl ⟨he.trans hd, ht.2⟩)) (fun _ _ => hd)).mono ?_
  rintro s ⟨q1, q2, as1, as2, q3, q4, q5⟩
  exact ⟨q1, q2, _, q3, g_augStmt hop q4 q5⟩

include H in
/-- `if x:` and `elif x:` -/
theorem hdr_spec {kw : Bytes} {k : Kind} (hk : (∃ x s, kw = x :: s ∧ isIdent x = true ∧ s.all isIdent = true) ∧ identKind kw = k ∧ depthChange k = 0) (hst : StartOK kw)
    {st st1 : St} {x : Expr} (h : Adds st st1 (· = kw ++ [32])) (hx : OkExprN x) (ht : tupleTight x = true) (hd : st1.depth = 0) :
    Adds st (emit b!":" (pr x 0 st1)) (YP false (fun as => ∃ as1, as = W k kw :: (as1 ++ [W 58 b!":"]) ∧ Gen as1 (.n .expr) (SE x))) := by
  have h1 := h.trans (fun hc => H.expr x 0 false st1 hx (by omega) hc (fun _ => .inl ⟨hd, ht⟩)) (R := fun s => ∃ s1, s = kw ++ 32 :: s1 ∧ Y false .expr (SE x) s1)
    (by rintro _ s2 rfl q; exact ⟨s2, by simp, q⟩)
  refine h1.emit ?_
  rintro _ ⟨s1, rfl, q1, q2, as1, q3, q4⟩
  have e : kw ++ 32 :: s1 ++ b!":" = kw ++ 32 :: (s1 ++ [58]) := by simp
  rw [e]
  refine ⟨hst.app, ((EndOK.app (EndOK.single (by decide))).cons).app, _, fun c hc => ?_, as1, rfl, q4⟩
  exact lx_kw hk follow32 (Lx.sp (Lx.appT q3 follow58 (lx_colon (Lx.nil false c))))

include H in
/-- a simple statement -/
theorem simpleC {s : Expr} {st : St} {f : Nat} (h : OkStmt s) (ht : tupleTight s = true) (hc : Clean st) (hd : st.depth = 0) :
    Adds st (exprBody ft pr f s 0 st) (Y false .smallStmt (SE s)) := by
  cases h with
  | expr _ hx => exact (body_expr H hx (Nat.zero_le 2) hc (fun _ => .inl ⟨hd, ht⟩)).mono (fun _ q => q.mono (fun _ g => g_smallExpr g))
  | assign c x p op lb y hop hx hy => exact p_assignStmt H hop hx hy ht hc hd
  | aug c x p op lb y hop hx hy => exact p_augStmt H hop hx hy ht hc hd
  | return_ c p x hx => exact p_return H hx ht hc hd
  | branch c t p hbr => exact Adds.mono (P := (· = t)) (Adds.emit0 (t := t) hc rfl) (by rintro _ rfl; exact p_branch hbr)

end

theorem OkStmt.isBlock {e : Expr} (h : OkStmt e) : isBlock e = false := by
  cases h with
  | expr _ h =>
    cases h with
    | one _ h => cases h.sh <;> rfl
    | tuple => rfl
  | _ => rfl

theorem OkStmt.noBlock {e : Expr} (h : OkStmt e) : isCommentBlock e = false := by
  cases h with
  | expr _ h =>
    cases h with
    | one _ h => cases h.sh <;> rfl
    | tuple => rfl
  | _ => rfl

theorem OkStmt.isNil {e : Expr} (h : OkStmt e) : e.isNil = false := by
  cases h with
  | expr _ h => exact h.isNil
  | _ => rfl

/-! ## Blocks -/

/-- what the printer does with statements -/
def PrC (pr : Pr) : Prop :=
  ∀ s st, OkStmtC s → tupleTight s = true → Round.Clean st → Fresh st → st.depth = 0 →
    (isCommentBlock s = false → AddsC st (pr s 0 st) (BlkT st.margin [s])) ∧ (isCommentBlock s = true → pr s 0 st = st ∨ pr s 0 st = { st with bad := true })

theorem OkStmtC.isNil {e : Expr} (h : OkStmtC e) : e.isNil = false := by
  cases h with
  | simple _ h _ => exact h.isNil
  | _ => rfl

theorem OkStmtC.after {e : Expr} (h : OkStmtC e) : ComsOK e.comments.after := by
  cases h with
  | simple _ _ h => exact h.2.2
  | block _ _ _ _ _ h => exact h
  | def_ _ _ _ _ _ _ _ _ _ h => exact h.2.2
  | for_ _ _ _ _ _ h => exact h.2.2
  | if_ _ _ _ _ _ _ h => exact h.2.2

theorem OkStmtC.blockAfter {e : Expr} (h : OkStmtC e) (hb : isCommentBlock e = true) : e.comments.after ≠ [] := by
  cases h with
  | simple _ h _ =>
    have := h.noBlock
    rw [hb] at this
    cases this
  | block _ _ _ _ h _ => exact h
  | _ => cases hb

/-- one statement of a list -/
theorem one_spec {pr : Pr} (hS : PrC pr) (hk : ∀ e o st, Keep st (pr e o st)) {s : Expr} {st : St} (hok : OkStmtC s) (ht : tupleTight s = true) (hc : Round.Clean st) (hf : Fresh st)
    (hd : st.depth = 0) :
    AddsC st (afterComments s.comments.after (if isCommentBlock s then pr s 0 st else softNewline (pr s 0 st))) (BlkT st.margin [s]) ∧
      (afterComments s.comments.after (if isCommentBlock s then pr s 0 st else softNewline (pr s 0 st))).needsNL = true ∧
      Keep st (afterComments s.comments.after (if isCommentBlock s then pr s 0 st else softNewline (pr s 0 st))) := by
  obtain ⟨h1, h2⟩ := hS s st hok ht hc hf hd
  cases hb : isCommentBlock s with
  | false =>
    simp only [Bool.false_eq_true, if_false]
    have k := hk s 0 st
    obtain ⟨a, b, c⟩ := after_spec s.comments.after (softNewline (pr s 0 st)) hok.after rfl k.2 (h1 hb)
    exact ⟨a, b, Keep.trans (b := softNewline (pr s 0 st)) k c⟩
  | true =>
    simp only [if_true]
    have hne := hok.blockAfter hb
    have hcs := hok.after
    generalize s.comments.after = l at hne hcs
    cases l with
    | nil => exact absurd rfl hne
    | cons c l =>
      have hct := comText_ok (hcs c (by simp))
      have key : ∀ st1 : St, st1 = st ∨ st1 = { st with bad := true } → AddsC st (afterComments (c :: l) st1) (BlkT st.margin [s]) ∧ (afterComments (c :: l) st1).needsNL = true ∧
          Keep st (afterComments (c :: l) st1) := by
        intro st1 h1
        have hn : newlineIfNeeded st1 = st1 := by
          unfold newlineIfNeeded
          rcases h1 with rfl | rfl <;> rw [if_neg (by simp [hc.2])]
        unfold afterComments
        rw [hn]
        have h3 : AddsC st (softNewline (emit (comText c) st1)) (BlkT st.margin [s]) := by
          rcases h1 with rfl | rfl
          · refine ⟨by show ComsOK st1.comment; rw [hc.1]; exact comsOK_nil, fun hb' => ⟨hb', comText c, rfl, hct.2, fun k q hcq => ?_⟩⟩
            show Blk _ _ (comText c ++ nlText k (st1.comment ++ q))
            rw [hc.1]
            exact .inl ⟨stmtsOf_cons_block hb, fil_comment _ k hct.1 hcq⟩
          · exact ⟨by show ComsOK st.comment; rw [hc.1]; exact comsOK_nil, fun hb' => by cases hb'⟩
        have hm : (softNewline (emit (comText c) st1)).margin = st.margin := by rcases h1 with rfl | rfl <;> rfl
        have hd1 : (softNewline (emit (comText c) st1)).depth = st.depth := by rcases h1 with rfl | rfl <;> rfl
        obtain ⟨a1, a2, a3⟩ := after_spec l (softNewline (emit (comText c) st1)) (fun x hx => hcs x (by simp [hx])) rfl hm h3
        exact ⟨a1, a2, a3.1.trans hd1, a3.2.trans hm⟩
      exact key _ (h2 hb)

section
variable {ft : FileType} {pr : Pr} (hS : PrC pr) (hk : ∀ e o st, Keep st (pr e o st))
include hS hk

theorem loopC : ∀ (l : List Expr) (st : St), l ≠ [] → (∀ s ∈ l, OkStmtC s) → (∀ s ∈ l, tupleTight s = true) → Round.Clean st → Fresh st → st.depth = 0 →
    AddsC st (stmtLoop ft pr l st) (BlkT st.margin l) ∧ (stmtLoop ft pr l st).needsNL = true := by
  intro l
  induction l with
  | nil => intro st h; exact absurd rfl h
  | cons s l ih =>
    intro st _ hok htt hc hf hd
    obtain ⟨h1, h2, h3⟩ := one_spec hS hk (hok s (by simp)) (htt s (by simp)) hc hf hd
    unfold stmtLoop
    dsimp only
    generalize afterComments s.comments.after (if isCommentBlock s then pr s 0 st else softNewline (pr s 0 st)) = st1 at h1 h2 h3 ⊢
    cases l with
    | nil => exact ⟨h1, h2⟩
    | cons s2 l =>
      dsimp only
      obtain ⟨j, n1, n2, n3⟩ := nls_spec (compactStmt ft (newline st1).level s s2) h1 h3.2
      generalize (if compactStmt ft (newline st1).level s s2 = true then newline st1 else newline (newline st1)) = st2 at n1 n2 n3 ⊢
      have hd2 : st2.depth = 0 := n3.1.trans (h3.1.trans hd)
      have hm2 : st2.margin = st.margin := n3.2.trans h3.2
      obtain ⟨a, b⟩ := ih st2 (by simp) (fun x hx => hok x (by simp [hx])) (fun x hx => htt x (by simp [hx])) n1.1 n2 hd2
      rw [hm2] at a
      refine ⟨n1.transC (fun _ => a) ?_, b⟩
      rintro _ t2 p hp ⟨s0, p0, rfl, hp0, hq⟩ h
      intro k q hcq
      have := (hq.end st.margin).seq j (h k q hcq)
      simpa using this

theorem statementsC {l : List Expr} {st : St} (hl : l ≠ []) (hok : ∀ s ∈ l, OkStmtC s) (htt : ∀ s ∈ l, tupleTight s = true) (hc : Round.Clean st) (hf : Fresh st) (hd : st.depth = 0) :
    AddsC st (statements ft pr l st) (BlkT st.margin l) ∧ (statements ft pr l st).needsNL = true := by
  unfold statements
  rw [List.filter_eq_self.2 (fun x hx => by simp [(hok x hx).isNil])]
  exact loopC hS hk l st hl hok htt hc hf hd

/-- a header and an indented block -/
theorem nestedC {l : List Expr} {st0 st : St} {P : List ATok → Prop} (h : AddsC st0 st (fun t _ => YP false P t)) (hd : st.depth = 0) (hl : stmtsOf l ≠ []) (hok : ∀ s ∈ l, OkStmtC s)
    (htt : ∀ s ∈ l, tupleTight s = true) :
    AddsC st0 (nestedStatements ft pr l st) (LnT st.margin (BlockC P l)) ∧ Mid (nestedStatements ft pr l st) st.margin := by
  have hl' : l ≠ [] := fun e => hl (by rw [e]; rfl)
  have kk := keep_nested (ft := ft) hk l st
  unfold nestedStatements at kk ⊢
  dsimp only at kk ⊢
  have n0 : AddsC st0 { st with margin := st.margin + nestedIndentation, level := st.level + 1 } (fun t _ => YP false P t) := h
  have n1 := n0.newline
  have nf := fresh_newline { st with margin := st.margin + nestedIndentation, level := st.level + 1 }
  have k1 := keep_newline { st with margin := st.margin + nestedIndentation, level := st.level + 1 }
  have hd1 : (newline { st with margin := st.margin + nestedIndentation, level := st.level + 1 }).depth = 0 := k1.1.trans hd
  have hm1 : (newline { st with margin := st.margin + nestedIndentation, level := st.level + 1 }).margin = st.margin + 4 := k1.2
  obtain ⟨a, b⟩ := statementsC (ft := ft) hS hk (st := newline { st with margin := st.margin + nestedIndentation, level := st.level + 1 }) hl' hok htt n1.1 nf hd1
  rw [hm1] at a
  refine ⟨?_, b, kk.2, kk.1.trans hd⟩
  have h2 := n1.transC (fun _ => a) (R := LnT st.margin (BlockC P l)) (by
    rintro _ t2 p hp ⟨t0, p0, rfl, hp0, hq⟩ h2 k q hcq
    obtain ⟨ae, he⟩ := nlText_end (st.margin + 4) hp0
    have := lnc_block (m := st.margin) hq he hl (h2 k q hcq)
    show LnC _ _ (t0 ++ (nlText (st.margin + 4) p0 ++ spaces (st.margin + 4)) ++ t2 ++ nlText k (p ++ q))
    simpa using this)
  exact h2

end

/-! ## Statements with blocks -/

section
variable {ft : FileType} {pr : Pr} (H : PrOK pr) (hS : PrC pr)
include H hS

/-- the first branch -/
theorem if_firstC {x : Expr} {tr : List Expr} {st : St} (hc : Round.Clean st) (hd : st.depth = 0) (hx : OkExprN x) (ht : tupleTight x = true) (hl : stmtsOf tr ≠ []) (hok : ∀ s ∈ tr, OkStmtC s)
    (htt : ∀ s ∈ tr, tupleTight s = true) :
    AddsC st (nestedStatements ft pr tr (emit b!":" (pr x 0 (emit b!"if " st)))) (LnT st.margin (fun as => Gen as (.n (.ifChain false)) (VDv [(x, tr)] []))) ∧
      Mid (nestedStatements ft pr tr (emit b!":" (pr x 0 (emit b!"if " st)))) st.margin := by
  have k : Keep st (emit b!":" (pr x 0 (emit b!"if " st))) := (H.keep x 0 (emit b!"if " st))
  have h1 := (hdr_spec H (kw := b!"if") (k := K.if_) ⟨⟨_, _, rfl, by decide, by decide⟩, by decide, by decide⟩ ⟨105, _, rfl, by unfold Start; decide⟩
    (Adds.emit0 (t := b!"if ") (clean_of hc) rfl) hx ht hd).toC (fun _ q => q.2.1)
  obtain ⟨h2, h3⟩ := nestedC (ft := ft) hS H.keep h1 (k.1.trans hd) hl hok htt
  rw [k.2] at h2 h3
  refine ⟨h2.mono (fun t p _ q => q.mono ?_), h3⟩
  rintro _ ⟨_, a2, rfl, ⟨as1, rfl, g1⟩, g2⟩
  exact (c_if g1 g2).cast (by simp)

/-- the other branches -/
theorem if_nextC {x : Expr} {tr : List Expr} {st0 st : St} {m : Nat} {l : List (Expr × List Expr)} (ne : Bool)
    (h : AddsC st0 st (LnT m (fun as => Gen as (.n (.ifChain false)) (VDv l [])))) (hm : Mid st m) (hx : OkExprN x) (ht : tupleTight x = true) (hl : stmtsOf tr ≠ [])
    (hok : ∀ s ∈ tr, OkStmtC s) (htt : ∀ s ∈ tr, tupleTight s = true) :
    AddsC st0 (nestedStatements ft pr tr (emit b!":" (pr x 0 (emit b!"if " (emit b!"el" (nl ne st)))))) (LnT m (fun as => Gen as (.n (.ifChain false)) (VDv (l ++ [(x, tr)]) []))) ∧
      Mid (nestedStatements ft pr tr (emit b!":" (pr x 0 (emit b!"if " (emit b!"el" (nl ne st)))))) m := by
  obtain ⟨⟨j, n1⟩, n2, n3⟩ := nlC_spec ne h hm
  have k : Keep (nl ne st) (emit b!":" (pr x 0 (emit b!"if " (emit b!"el" (nl ne st))))) := (H.keep x 0 (emit b!"if " (emit b!"el" (nl ne st))))
  have h1 := (hdr_spec H (kw := b!"elif") (k := K.elif) (st := nl ne st) ⟨⟨_, _, rfl, by decide, by decide⟩, by decide, by decide⟩ ⟨101, _, rfl, by unfold Start; decide⟩
    ((Adds.emit0 (t := b!"el") (R := (· = b!"el")) (clean_of n1.1) rfl).emit (t := b!"if ") (by rintro _ rfl; rfl)) hx ht n3).toC (fun _ q => q.2.1)
  obtain ⟨h2, h3⟩ := nestedC (ft := ft) hS H.keep h1 (k.1.trans n3) hl hok htt
  rw [k.2, n2] at h2 h3
  refine ⟨n1.transC (fun _ => h2) ?_, h3⟩
  rintro _ t2 p hp ⟨t0, p0, rfl, hp0, q0⟩ q k cs hcs
  obtain ⟨aj, hj⟩ := fil_blank j
  have := ((q0.end m).seq hj (q k cs hcs)).mono (Q := fun as => Gen as (.n (.ifChain false)) (VDv (l ++ [(x, tr)]) [])) (by
    rintro _ ⟨a0, _, rfl, g0, _, a2, rfl, ⟨as1, rfl, g1⟩, g2⟩
    exact (c_elif g0 g1 g2).cast (by simp))
  simpa using this

/-- the block after `else` -/
theorem if_elseC {els : List Expr} {st0 st : St} {m : Nat} {l : List (Expr × List Expr)} {R} {cs : List Comment} (ne : Bool) (hcs : ComsOK cs)
    (h : AddsC st0 st (LnT m (fun as => Gen as (.n (.ifChain false)) (VDv l [])))) (hm : Mid st m) (hl : stmtsOf els ≠ [])
    (hok : ∀ s ∈ els, OkStmtC s) (htt : ∀ s ∈ els, tupleTight s = true) (hs : ∀ v, VDv l els v → R v) :
    AddsC st0 (nestedStatements ft pr els { emit b!"else:" (nl ne st) with comment := (emit b!"else:" (nl ne st)).comment ++ cs }) (LnT m (fun as => Gen as (.n (.blockStmt false)) R)) := by
  obtain ⟨⟨j, n1⟩, n2, n3⟩ := nlC_spec ne h hm
  have hT : T false b!"else:" [W K.else_ b!"else", W 58 b!":"] := fun c hc =>
    lx_kw (t := b!"else") (s := b!":") (k := K.else_) ⟨⟨_, _, rfl, by decide, by decide⟩, by decide, by decide⟩ follow58 (lx_colon (Lx.nil false c))
  have h1 : AddsC (nl ne st) { emit b!"else:" (nl ne st) with comment := (emit b!"else:" (nl ne st)).comment ++ cs } (fun t _ => YP false (· = [W K.else_ b!"else", W 58 b!":"]) t) := by
    refine ⟨?_, fun hb => ⟨hb, b!"else:", rfl, ⟨b!"else", 58, rfl, by decide⟩, ⟨101, _, rfl, by unfold Start; decide⟩, ⟨b!"else", 58, rfl, by decide⟩, _, hT, rfl⟩⟩
    show ComsOK ((nl ne st).comment ++ cs)
    rw [n1.1.1]
    exact hcs
  obtain ⟨h2, _⟩ := nestedC (ft := ft) hS H.keep h1 n3 hl hok htt
  have e : ({ emit b!"else:" (nl ne st) with comment := (emit b!"else:" (nl ne st)).comment ++ cs } : St).margin = m := n2
  rw [e] at h2
  refine n1.transC (fun _ => h2) ?_
  rintro _ t2 p hp ⟨t0, p0, rfl, hp0, q0⟩ q k cs hcs
  obtain ⟨aj, hj⟩ := fil_blank j
  have := ((q0.end m).seq hj (q k cs hcs)).mono (Q := fun as => Gen as (.n (.blockStmt false)) R) (by
    rintro _ ⟨a0, _, rfl, g0, _, a2, rfl, rfl, g2⟩
    exact c_else g0 g2 (fun e => hl (by rw [e]; rfl)) hs)
  simpa using this

omit H hS in
theorem okIfC {c p x body ep els} (h : OkStmtC (.ifS c p x body ep els)) :
    OkExprN x ∧ ComsOK ep.comments.suffix ∧ stmtsOf body ≠ [] ∧ (∀ s ∈ body, OkStmtC s) ∧ (els ≠ [] → stmtsOf els ≠ []) ∧ (∀ s ∈ els, OkStmtC s) := by
  cases h with
  | simple _ h _ => have := h.isBlock; cases this
  | if_ _ _ _ _ _ _ h1 h2 h3 h4 h5 h6 h7 => exact ⟨h2, h3, h4, h5, h6, h7⟩

omit H hS in
theorem okBlockC {e : Expr} (h : OkStmtC e) (hb : isBlock e = true) : NodeOK e.comments := by
  cases h with
  | simple _ h _ => rw [h.isBlock] at hb; cases hb
  | block => cases hb
  | def_ _ _ _ _ _ _ _ _ _ h => exact h
  | for_ _ _ _ _ _ h => exact h
  | if_ _ _ _ _ _ _ h => exact h

theorem chainC : ∀ (f : Nat) {c p ep} {co : Expr} {tr : List Expr} {fa : List Expr} {st0 st : St} {m : Nat} {l : List (Expr × List Expr)} {w : Expr},
    AddsC st0 st (LnT m (fun as => Gen as (.n (.ifChain false)) (VDv (l ++ [(co, tr)]) []))) → Mid st m → Pre l (.ifS c p co tr ep fa) w → ComsOK ep.comments.suffix →
    (fa ≠ [] → stmtsOf fa ≠ []) → (∀ s ∈ fa, OkStmtC s) → (∀ s ∈ fa, tupleTight s = true) →
    AddsC st0 (chainRest ft pr f tr ep fa st) (LnT m (fun as => Gen as (.n (.blockStmt false)) (SSE w))) := by
  have els : ∀ {c p ep} {co : Expr} {tr : List Expr} {fa : List Expr} {st0 st : St} {m : Nat} {l : List (Expr × List Expr)} {w : Expr},
      AddsC st0 st (LnT m (fun as => Gen as (.n (.ifChain false)) (VDv (l ++ [(co, tr)]) []))) → Mid st m → Pre l (.ifS c p co tr ep fa) w → ComsOK ep.comments.suffix →
      (fa ≠ [] → stmtsOf fa ≠ []) → (∀ s ∈ fa, OkStmtC s) → (∀ s ∈ fa, tupleTight s = true) →
      AddsC st0 (elseRest ft pr tr ep fa st) (LnT m (fun as => Gen as (.n (.blockStmt false)) (SSE w))) := by
    intro c p ep co tr fa st0 st m l w h hm hp he hfa hok htt
    unfold elseRest
    cases fa with
    | nil => exact h.mono (fun t p _ q => q.mono (fun as g => c_noElse g (fun v hv => VD.same hv hp)))
    | cons x fa => exact if_elseC H hS _ he h hm (hfa (by simp)) hok htt (fun v hv => VD.same hv hp)
  intro f
  induction f with
  | zero =>
    intro c p ep co tr fa st0 st m l w h hm hp he hfa hok htt
    rcases chainRest_cases (ft := ft) (pr := pr) 0 tr ep fa st with e | ⟨c2, p2, co2, tr2, ep2, fa2, rfl, e⟩
    · rw [e]; exact els h hm hp he hfa hok htt
    · rw [e]
      exact ⟨h.1, fun hb => by cases hb⟩
  | succ f ih =>
    intro c p ep co tr fa st0 st m l w h hm hp he hfa hok htt
    rcases chainRest_cases (ft := ft) (pr := pr) (f + 1) tr ep fa st with e | ⟨c2, p2, co2, tr2, ep2, fa2, rfl, e⟩
    · rw [e]; exact els h hm hp he hfa hok htt
    · obtain ⟨h1, h2, h3, h4, h5, h6⟩ := okIfC (hok _ List.mem_cons_self)
      have ht := htt _ List.mem_cons_self
      unfold tupleTight at ht
      simp only [Bool.and_eq_true] at ht
      rw [e, ifChain_next (fun e => h3 (by rw [e]; rfl))]
      obtain ⟨a1, a2⟩ := if_nextC (ft := ft) H hS (decide (ep.pos.line > (endPosLast tr).line + 1)) h hm h1 ht.1.1 h3 h4 (tupleTightL_mem ht.1.2)
      exact ih a1 a2 hp.snoc h2 h5 h6 (tupleTightL_mem ht.2)

theorem ifC {c p x body ep els st f} (h : OkStmtC (.ifS c p x body ep els)) (ht : tupleTight (.ifS c p x body ep els) = true) (hc : Round.Clean st) (hd : st.depth = 0) :
    AddsC st (exprBody ft pr f (.ifS c p x body ep els) 0 st) (LnT st.margin (fun as => Gen as (.n (.blockStmt false)) (SSE (.ifS c p x body ep els)))) := by
  unfold tupleTight at ht
  simp only [Bool.and_eq_true] at ht
  obtain ⟨h1, h2, h3, h4, h5, h6⟩ := okIfC h
  show AddsC st (ifChain ft pr f true false x body ep els st) _
  cases f with
  | zero => exact ⟨by show ComsOK st.comment; rw [hc.1]; exact comsOK_nil, fun hb => by cases hb⟩
  | succ f =>
    rw [ifChain_first hc (fun e => h3 (by rw [e]; rfl))]
    obtain ⟨a1, a2⟩ := if_firstC (ft := ft) H hS hc hd h1 ht.1.1 h3 h4 (tupleTightL_mem ht.1.2)
    exact chainC H hS f (l := []) a1 a2 (.nil _) h2 h5 h6 (tupleTightL_mem ht.2)

theorem forC {c p v x body st f} (hv : OkVarsN v) (hx : OkExprN x) (hl : stmtsOf body ≠ []) (hok : ∀ s ∈ body, OkStmtC s) (ht : tupleTight (.forS c p v x body) = true) (hc : Round.Clean st)
    (hd : st.depth = 0) : AddsC st (exprBody ft pr f (.forS c p v x body) 0 st) (LnT st.margin (fun as => Gen as (.n (.blockStmt false)) (SSE (.forS c p v x body)))) := by
  unfold tupleTight at ht
  simp only [Bool.and_eq_true] at ht
  show AddsC st (nestedStatements ft pr body (emit b!":" (pr x 0 (emit b!" in " (pr v 0 (emit b!"for " st)))))) _
  have k1 : Keep st (pr v 0 (emit b!"for " st)) := H.keep v 0 (emit b!"for " st)
  have k2 : Keep st (emit b!":" (pr x 0 (emit b!" in " (pr v 0 (emit b!"for " st))))) := k1.trans (H.keep x 0 (emit b!" in " (pr v 0 (emit b!"for " st))))
  have h1 := (Adds.emit0 (R := (· = b!"for ")) (clean_of hc) rfl).trans (fun hc' => H.vars v false _ hv hc' (fun _ => .inl ⟨hd, ht.1.1⟩)) (R := fun s => ∃ s1, s = b!"for " ++ s1 ∧ Y false .loopVars (SE v) s1)
    (by rintro _ s2 rfl q; exact ⟨s2, rfl, q⟩)
  have h2 := h1.emit (t := b!" in ") (R := fun s => ∃ s1, s = b!"for " ++ s1 ++ b!" in " ∧ Y false .loopVars (SE v) s1) (by rintro _ ⟨s1, rfl, q⟩; exact ⟨s1, rfl, q⟩)
  have h3 := h2.trans (fun hc' => H.expr x 0 false _ hx (by omega) hc' (fun _ => .inl ⟨k1.1.trans hd, ht.1.2⟩))
    (R := fun s => ∃ s1 s2, s = b!"for " ++ s1 ++ b!" in " ++ s2 ∧ Y false .loopVars (SE v) s1 ∧ Y false .expr (SE x) s2) (by rintro _ s2 ⟨s1, rfl, q⟩ q2; exact ⟨s1, s2, rfl, q, q2⟩)
  have h4 := h3.emit (t := b!":") (R := YP false (fun as => ∃ as1 as2, as = W K.for_ b!"for" :: (as1 ++ (W K.in_ b!"in" :: (as2 ++ [W 58 b!":"]))) ∧
      Gen as1 (.n .loopVars) (SE v) ∧ Gen as2 (.n .expr) (SE x))) (by
    rintro _ ⟨s1, s2, rfl, ⟨_, _, as1, q3, q4⟩, _, _, as2, r3, r4⟩
    have e : b!"for " ++ s1 ++ b!" in " ++ s2 ++ b!":" = b!"for" ++ 32 :: (s1 ++ 32 :: (b!"in" ++ 32 :: (s2 ++ [58]))) := by simp
    rw [e]
    refine ⟨StartOK.app ⟨102, _, rfl, by unfold Start; decide⟩, EndOK.app (EndOK.cons (EndOK.app (EndOK.cons (EndOK.app (EndOK.cons (EndOK.app (EndOK.single (by decide)))))))), _, fun c hc => ?_, as1, as2, rfl, q4, r4⟩
    exact lx_kw (k := K.for_) ⟨⟨_, _, rfl, by decide, by decide⟩, by decide, by decide⟩ follow32 (Lx.sp (Lx.appT q3 follow32 (Lx.sp
      (lx_kw (k := K.in_) ⟨⟨_, _, rfl, by decide, by decide⟩, by decide, by decide⟩ follow32 (Lx.sp (Lx.appT r3 follow58 (lx_colon (Lx.nil false c)))))))))
  obtain ⟨h5, _⟩ := nestedC (ft := ft) hS H.keep (h4.toC (fun _ q => q.2.1)) (k2.1.trans hd) hl hok (tupleTightL_mem ht.2)
  rw [k2.2] at h5
  refine h5.mono (fun t p _ q => q.mono ?_)
  rintro _ ⟨_, a2, rfl, ⟨as1, as2, rfl, g1, g2⟩, g3⟩
  exact (c_for g1 g2 g3).cast (by simp)

theorem defC {c p name ps body cp fc fm ty st f} (hname : Name name) (hps : ∀ a ∈ ps, OkParam true a) (hty : ty.isNil = false → OkN ty) (hl : stmtsOf body ≠ []) (hok : ∀ s ∈ body, OkStmtC s)
    (ht : tupleTight (.defS c p name ps body cp fc fm ty) = true) (hc : Round.Clean st) (hd : st.depth = 0) :
    AddsC st (exprBody ft pr f (.defS c p name ps body cp fc fm ty) 0 st) (LnT st.margin (fun as => Gen as (.n (.blockStmt false)) (SSE (.defS c p name ps body cp fc fm ty)))) := by
  unfold tupleTight at ht
  simp only [Bool.and_eq_true] at ht
  show AddsC st (nestedStatements ft pr body (emit b!":" (if ty.isNil then seq ft pr b!"(" b!")" p ps none .def_ fc fm (emit name (emit b!"def " st)) else
    pr ty 0 (emit b!" -> " (seq ft pr b!"(" b!")" p ps none .def_ fc fm (emit name (emit b!"def " st))))))) _
  have k1 : Keep st (seq ft pr b!"(" b!")" p ps none .def_ fc fm (emit name (emit b!"def " st))) := keep_seq H.keep _ _ _ _ _ _ _ _ (emit name (emit b!"def " st))
  have h0 := (Adds.emit0 (t := b!"def ") (R := (· = b!"def ")) (clean_of hc) rfl).emit (t := name) (R := (· = b!"def " ++ name)) (by rintro _ rfl; rfl)
  have h1 := h0.trans (fun hc' => seq_spec (ft := ft) (start := p) (e := none) (fc := fc) (fm := fm) (elem := fun x as => Gen as (.n .parameterType) (SE x)) (m := .def_) (o := 40) (c := 41) (by decide) (.inl rfl)
    (fun x hx => (hps x hx).isNil) (by rintro _ ⟨⟩) (fun _ => rfl) (fun x hx st hc hf => H.param true x true st (hps x hx) (hf.imp id (fun h => ⟨rfl, h⟩)) hc (dep_true _ _)) H.keep _ hc')
    (R := YP false (fun as => Gen as (.n .defHeader) (SDef name ps .nil))) (by
      rintro _ _ rfl ⟨s1, as, rfl, hs⟩
      have e : b!"def " ++ name ++ 40 :: (s1 ++ [41]) = b!"def" ++ 32 :: (name ++ 40 :: (s1 ++ [41])) := by simp
      rw [e]
      obtain ⟨e1, e2⟩ := group_ends (s := s1) (o := 40) (cl := 41) (.inl rfl) (.inl rfl)
      refine ⟨StartOK.app ⟨100, _, rfl, by unfold Start; decide⟩, ((e2.app).cons).app, _, fun c hc => ?_, g_header hs.all⟩
      exact lx_kw (k := K.def_) ⟨⟨_, _, rfl, by decide, by decide⟩, by decide, by decide⟩ follow32 (Lx.sp (Lx.appT (t_name hname) follow40 (lx_group (.inl rfl) (.inl rfl) hs.lex c hc))))
  generalize seq ft pr b!"(" b!")" p ps none .def_ fc fm (emit name (emit b!"def " st)) = st1 at h1 k1 ⊢
  have k2 : Keep st (if ty.isNil then st1 else pr ty 0 (emit b!" -> " st1)) := by
    cases ty.isNil
    · exact k1.trans (H.keep ty 0 (emit b!" -> " st1))
    · exact k1
  have h2 : Adds st (if ty.isNil then st1 else pr ty 0 (emit b!" -> " st1)) (YP false (fun as => Gen as (.n .defHeaderTypeOpt) (SDef name ps ty))) := by
    cases hn : ty.isNil with
    | true => rw [isNil_eq hn]; exact h1.mono (fun _ q => q.mono (fun _ g => g_headerType0 g))
    | false =>
      simp only [Bool.false_eq_true, if_false]
      have h3 := h1.emit (t := b!" -> ") (R := fun s => ∃ s0, s = s0 ++ b!" -> " ∧ YP false (fun as => Gen as (.n .defHeader) (SDef name ps .nil)) s0) (fun s q => ⟨s, rfl, q⟩)
      refine h3.trans (fun hc' => H.any (b := false) (hty hn) (Nat.zero_le 2) hc' (fun _ => .inl ⟨k1.1.trans hd, ht.1⟩)) ?_
      rintro _ s2 ⟨s0, rfl, q1, q2, as1, q3, q4⟩ ⟨_, r2, as2, r3, r4⟩
      have e : s0 ++ b!" -> " ++ s2 = s0 ++ 32 :: (b!"->" ++ 32 :: s2) := by simp
      rw [e]
      exact ⟨q1.app, ((r2.cons).app.cons).app, _, fun c hc => Lx.appT q3 follow32 (Lx.sp (Lx.pre (tok_arrow _) (by decide) (Lx.sp (r3 c hc)))), g_headerType1 q4 r4⟩
  generalize (if ty.isNil then st1 else pr ty 0 (emit b!" -> " st1)) = st2 at h2 k2 ⊢
  have h4 := h2.emit (t := b!":") (R := YP false (fun as => ∃ as1, as = as1 ++ [W 58 b!":"] ∧ Gen as1 (.n .defHeaderTypeOpt) (SDef name ps ty))) (by
    rintro s ⟨q1, q2, as1, q3, q4⟩
    exact ⟨q1.app, EndOK.app (EndOK.single (by decide)), _, fun c hc => Lx.appT q3 follow58 (lx_colon (Lx.nil false c)), as1, rfl, q4⟩)
  obtain ⟨h5, _⟩ := nestedC (ft := ft) hS H.keep (h4.toC (fun _ q => q.2.1)) (k2.1.trans hd) hl hok (tupleTightL_mem ht.2)
  rw [show (emit b!":" st2).margin = st.margin from k2.2] at h5
  refine h5.mono (fun t p _ q => q.mono ?_)
  rintro _ ⟨_, a2, rfl, ⟨as1, rfl, g1⟩, g3⟩
  exact (c_def g1 g3).cast (by simp)

/-- the body of a statement, before its comments -/
theorem bodyC {s : Expr} {st : St} {f : Nat} (h : OkStmtC s) (hcb : isCommentBlock s = false) (ht : tupleTight s = true) (hc : Round.Clean st) (hd : st.depth = 0) :
    AddsC st (exprBody ft pr f s 0 st) (LnT st.margin (ExtC [s])) ∧ NodeOK s.comments := by
  cases h with
  | simple _ hs hn =>
    refine ⟨((simpleC (ft := ft) (f := f) H hs ht (clean_of hc) hd).toC (fun s q => q.2.1)).mono ?_, hn⟩
    rintro t p hp q k cs hcs
    obtain ⟨aw, hw⟩ := nlText_end k (l := p ++ cs) (fun x hx => (List.mem_append.1 hx).elim (hp x) (hcs x))
    exact lnc_simple q hs.isBlock hcb hw
  | block => cases hcb
  | def_ c p name ps body cp fc fm ty h0 h1 h2 h3 h4 h5 => exact ⟨(defC (ft := ft) H hS h1 h2 h3 h4 h5 ht hc hd).mono (fun t p _ q => q.mono (fun as g => extC_block rfl g)), h0⟩
  | for_ c p v x body h0 h1 h2 h3 h4 => exact ⟨(forC (ft := ft) H hS h1 h2 h3 h4 ht hc hd).mono (fun t p _ q => q.mono (fun as g => extC_block rfl g)), h0⟩
  | if_ c p x body ep els h0 h1 h2 h3 h4 h5 h6 =>
    exact ⟨(ifC (ft := ft) H hS (.if_ c p x body ep els h0 h1 h2 h3 h4 h5 h6) ht hc hd).mono (fun t p _ q => q.mono (fun as g => extC_block rfl g)), h0⟩

end

theorem prC (ft : FileType) : ∀ f, PrC (expr ft f) := by
  intro f
  induction f with
  | zero => intro s st _ _ hc _ _; exact ⟨fun _ => ⟨by show ComsOK st.comment; rw [hc.1]; exact comsOK_nil, fun hb => by cases hb⟩, fun _ => .inr rfl⟩
  | succ f ih =>
    intro s st h ht hc hf hd
    have h1 : newlineIfNeeded st = st := by unfold newlineIfNeeded; rw [hc.2]; rfl
    have e : expr ft (f + 1) s 0 st = { exprBody ft (expr ft f) f s 0 (beforeComments s.comments.before st) with
        comment := (exprBody ft (expr ft f) f s 0 (beforeComments s.comments.before st)).comment ++ s.comments.suffix } := by
      show { exprBody ft (expr ft f) f s 0 (beforeComments s.comments.before (newlineIfNeeded st)) with
        comment := (exprBody ft (expr ft f) f s 0 (beforeComments s.comments.before (newlineIfNeeded st))).comment ++ s.comments.suffix } = _
      rw [h1]
    refine ⟨fun hcb => ?_, fun hcb => .inl ?_⟩
    · have hn : NodeOK s.comments := by
        cases h with
        | simple _ _ hn => exact hn
        | block => cases hcb
        | def_ _ _ _ _ _ _ _ _ _ h => exact h
        | for_ _ _ _ _ _ h => exact h
        | if_ _ _ _ _ _ _ h => exact h
      obtain ⟨⟨g, ag, hg, hb⟩, hk⟩ := before_spec hn.1 hc hf
      have h2 := (bodyC (ft := ft) (f := f) (prOK ft f) ih h hcb ht hb.1 (hk.1.trans hd)).1
      rw [hk.2] at h2
      have h3 := hb.transC (fun _ => h2) (R := fun t p => ∀ k q, ComsOK q → Blk st.margin [s] (t ++ nlText k (p ++ q))) (by
        rintro s1 s2 p hp q1 q2 k q hq
        refine .inr ⟨g, ag, s2 ++ nlText k (p ++ q), hg, ?_, q2 k q hq⟩
        rw [← List.append_assoc, ← List.append_assoc, q1]
        simp)
      rw [e]
      refine ⟨?_, fun hb' => ?_⟩
      · intro c hc'
        rcases List.mem_append.1 hc' with hc' | hc'
        · exact h3.1 c hc'
        · exact hn.2.1 c hc'
      · obtain ⟨b0, t, et, he, q⟩ := h3.2 hb'
        refine ⟨b0, t, et, he, fun k cs hcs => ?_⟩
        show Blk _ _ (t ++ nlText k (_ ++ s.comments.suffix ++ cs))
        rw [List.append_assoc]
        exact q k _ (fun c hc' => (List.mem_append.1 hc').elim (hn.2.1 c) (hcs c))
    · rw [e]
      cases h with
      | simple _ h _ =>
        have := h.noBlock
        rw [hcb] at this
        cases this
      | block c p h1 h2 =>
        show ({ beforeComments c.before st with comment := (beforeComments c.before st).comment ++ c.suffix } : St) = st
        rw [h1, h2]
        show ({ st with comment := st.comment ++ [] } : St) = st
        rw [List.append_nil]
      | _ => cases hcb

/-! ## The file -/

/-- what is printed for a file -/
theorem format_specI {f : File} {out : Bytes} (hcb : ComsOK f.comments.before) (hca : f.comments.after = []) (hok : ∀ s ∈ f.stmts, OkStmtC s) (htt : ∀ s ∈ f.stmts, tupleTight s = true)
    (h : format f = some out) : ∃ g ag, Fil g ag ∧ ((stmtsOf f.stmts = [] ∧ out = g) ∨ ∃ t, out = g ++ t ∧ LnC 0 (ExtC f.stmts) t) := by
  unfold format at h
  dsimp only at h
  by_cases hb : (file f {}).bad = true
  · rw [if_pos hb] at h; cases h
  rw [if_neg hb] at h
  injection h with h
  have hb' : (file f {}).bad = false := by simpa using hb
  have hc0 : Round.Clean ({} : St) := ⟨rfl, rfl⟩
  obtain ⟨⟨g, ag, hg, h1⟩, h2⟩ := before_fold (m := 0) f.comments.before {} {} [] [] hcb rfl .nil ((Round.Adds.refl hc0).mono (by rintro _ rfl; rfl))
  rw [← file_fold] at h1 h2
  have hf := file_fresh f.comments.before {} ⟨[], rfl, .inl rfl⟩
  by_cases hl : f.stmts = []
  · have e : file f {} = fileComments f.comments.before {} := by
      unfold file
      rw [hca, hl]
      show newlineIfNeeded (fileComments f.comments.before {}) = _
      unfold newlineIfNeeded
      rw [h1.1.2]
      rfl
    rw [e] at hb' h
    obtain ⟨_, s, es, q⟩ := h1.2 hb'
    refine ⟨g, ag, hg, .inl ⟨by rw [hl]; rfl, ?_⟩⟩
    rw [← h, es]
    have : s = g := by simpa [spaces] using q
    rw [this]
    show (g.reverse ++ []).reverse = g
    simp
  · obtain ⟨ha, hn⟩ := statementsC (ft := f.type) (prC f.type (budget f.stmts)) (fun e o st => keep_expr f.type (budget f.stmts) e o st) hl hok htt h1.1 hf (h2.1)
    have hm0 : (fileComments f.comments.before {}).margin = 0 := h2.2
    rw [hm0] at ha
    have hfile : file f {} = newline (statements f.type (expr f.type (budget f.stmts)) f.stmts (fileComments f.comments.before {})) := by
      unfold file
      rw [hca]
      show newlineIfNeeded (statements f.type (expr f.type (budget f.stmts)) f.stmts (fileComments f.comments.before {})) = _
      unfold newlineIfNeeded
      rw [if_pos hn]
    have hm : (statements f.type (expr f.type (budget f.stmts)) f.stmts (fileComments f.comments.before {})).margin = 0 := by
      exact ((keep_stmtLoop (ft := f.type) (pr := expr f.type (budget f.stmts)) (fun e o st => keep_expr f.type (budget f.stmts) e o st) _ _).2).trans hm0
    have h3 := (h1.transC (fun _ => ha) (R := fun t p => ∃ s1 s2, t = s1 ++ s2 ∧ spaces 0 ++ s1 = g ++ spaces 0 ∧ BlkT 0 f.stmts s2 p) (fun s1 s2 p _ q1 q2 => ⟨s1, s2, rfl, q1, q2⟩)).newline
    rw [← hfile, hm] at h3
    obtain ⟨_, s, es, _, p, rfl, hp, s1, s2, rfl, q1, q2⟩ := h3.2 hb'
    have e1 : s1 = g := by simpa [spaces] using q1
    have e2 : out = g ++ (s2 ++ nlText 0 p) := by
      rw [← h, es, e1]
      show ((g ++ s2 ++ (nlText 0 p ++ [])).reverse ++ []).reverse = _
      simp
    rcases q2.end 0 with ⟨w1, a, w2⟩ | ⟨g2, ag2, t', w1, w2, w3⟩
    · exact ⟨_, _, hg.app w2, .inl ⟨w1, e2⟩⟩
    · refine ⟨_, _, hg.app w1, .inr ⟨t', ?_, w3⟩⟩
      rw [e2]
      have : s2 ++ nlText 0 p = g2 ++ t' := w2
      rw [this, List.append_assoc]

/-- A printed file is read back. -/
theorem readsI {f : File} {out : Bytes} (ft : FileType) (hcb : ComsOK f.comments.before) (hca : f.comments.after = []) (hok : ∀ s ∈ f.stmts, OkStmtC s) (htt : ∀ s ∈ f.stmts, tupleTight s = true)
    (h : format f = some out) : ∃ fuel f', Comm.parseFile fuel ft out = some f' ∧ SameSL (stmtsOf f.stmts) (stmtsOf f'.stmts) := by
  obtain ⟨g, ag, hg, hp⟩ := format_specI hcb hca hok htt h
  obtain ⟨ts, te, as, stf, ht, hte, hts, hgen⟩ := printed_tokensC hg hp
  obtain ⟨cs, hcs, _⟩ := Props.Lexer.C48_tiles _ _ _ ht
  have hpos : ∀ t ∈ ts ++ [te], PosOK t := by
    refine tiled_pos hcs ?_
    have hd : out = [] ∨ ∃ x r, out = x :: r ∧ x ≠ 58 := by
      rcases hp with ⟨_, rfl⟩ | ⟨t, rfl, htx⟩
      · exact fil_head hg
      · rcases fil_head hg with rfl | ⟨x, r, rfl, hx⟩
        · obtain ⟨x, r, rfl, hx⟩ := htx.start
          exact .inr ⟨x, r, rfl, fun e => by rw [e] at hx; exact hx (by decide)⟩
        · exact .inr ⟨x, r ++ t, rfl, hx⟩
    rcases hd with rfl | ⟨x, r, rfl, hx⟩
    · decide
    · show some x ≠ some 58
      intro e
      injection e with e
      exact hx e
  have hfile : Gen (as ++ [W K.eof []]) (.n .file) (SSv f.stmts) :=
    Gen.prod2 Fm.file_1 (by decide) (stmts_any hgen) (gtok K.eof []) (fun v1 v2 q1 _ => ⟨_, rfl, q1⟩)
  obtain ⟨v, hv, hs⟩ := hfile (ts ++ [te]) (by rw [List.map_append, hts, List.map_cons, hte]; rfl) hpos
  obtain ⟨n, hn⟩ := C61_complete _ _ hv
  refine ⟨n, { type := ft, comments := (Comm.assign v.exprs stf.suffixComments stf.lineComments).1, stmts := (Comm.assign v.exprs stf.suffixComments stf.lineComments).2 }, ?_, ?_⟩
  · unfold Comm.parseFile
    rw [ht]
    dsimp only
    rw [hn]
  · exact ss_assign hs _ _

end Verif.RoundI
