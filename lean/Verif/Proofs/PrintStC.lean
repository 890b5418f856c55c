import Verif.Proofs.PrintBlk
/-
Printed statements with comments can be read back: the statements.
-/
namespace Verif.Round
open Verif Verif.Syntax Verif.Lexer Verif.Print Verif.Parser Verif.Grammar Verif.Props.Grammar

theorem tupleTight_set (e : Expr) (c : Comments) : tupleTight (e.setComments c) = tupleTight e := by cases e <;> rfl

theorem body_set {ft : FileType} {pr : Pr} {f : Nat} (e : Expr) (o : Nat) (st : St) : exprBody ft pr f (e.setComments {}) o st = exprBody ft pr f e o st := by
  cases e <;> first | rfl | skip
  rename_i c x ls l e fc fm
  cases x <;> rfl

/-- what the printer does with the expression at the end of a header -/
def PrH (pr : Pr) : Prop := ∀ x st, OkHead x → tupleTight x = true → Clean st → st.depth = 0 → AddsC st (pr x 0 st) (fun t _ => Y false .expr (SE x) t)

/-- what the printer does with the comments before a statement -/
theorem before_fold {m : Nat} : ∀ (l : List Comment) (st0 st : St) (g0 : Bytes) (ag0 : List ATok), ComsOK l → st.margin = m → Fil g0 ag0 →
    Adds st0 st (fun s => spaces m ++ s = g0 ++ spaces m) →
    (∃ g ag, Fil g ag ∧ Adds st0 (l.foldl (fun st c => newline (emit (comText c) st)) st) (fun s => spaces m ++ s = g ++ spaces m)) ∧
      Keep st (l.foldl (fun st c => newline (emit (comText c) st)) st) := by
  intro l
  induction l with
  | nil => intro st0 st g0 ag0 _ hm hg h; exact ⟨⟨g0, ag0, hg, h⟩, rfl, rfl⟩
  | cons c l ih =>
    intro st0 st g0 ag0 hok hm hg h
    have hc := comText_ok (hok c (by simp))
    have h1 := h.emit (t := comText c) (R := fun s => ∃ s0, s = s0 ++ comText c ∧ spaces m ++ s0 = g0 ++ spaces m) (fun s q => ⟨s, rfl, q⟩)
    have h2 := h1.toN.newline (by rintro _ ⟨s0, rfl, _⟩; exact hc.2.app)
    have hm1 : (emit (comText c) st).margin = m := hm
    rw [hm1] at h2
    have k1 : Keep st (newline (emit (comText c) st)) := keep_newline (emit (comText c) st)
    obtain ⟨a, b⟩ := ih st0 (newline (emit (comText c) st)) (g0 ++ (spaces m ++ (comText c ++ 10 :: []))) _ (fun x hx => hok x (by simp [hx])) (k1.2.trans hm)
      (hg.app (Fil.com m (comText c) [] [] hc.1 .nil)) (h2.mono (by
        rintro _ ⟨_, rfl, s0, rfl, q⟩
        have : spaces m ++ (s0 ++ comText c ++ 10 :: spaces m) = (spaces m ++ s0) ++ (comText c ++ 10 :: spaces m) := by simp
        rw [this, q]
        simp))
    exact ⟨a, k1.trans b⟩

theorem before_spec {l : List Comment} {st : St} (hok : ComsOK l) (hc : Clean st) (hf : Fresh st) :
    (∃ g ag, Fil g ag ∧ Adds st (beforeComments l st) (fun s => spaces st.margin ++ s = g ++ spaces st.margin)) ∧ Keep st (beforeComments l st) := by
  refine ⟨?_, keep_before l st⟩
  unfold beforeComments
  split
  · exact ⟨[], [], .nil, (Adds.refl hc).mono (by rintro _ rfl; simp)⟩
  · have e1 : trim st = { st with out := st.out.dropWhile (· == 32) } := rfl
    obtain ⟨o, ho, ho2⟩ := hf
    have e2 : st.out.dropWhile (· == 32) = o := by
      rw [ho]
      rcases ho2 with rfl | ⟨o', rfl⟩
      · rw [List.append_nil]
        have key : ∀ n, (spaces n).dropWhile (· == 32) = [] := by
          intro n
          induction n with
          | zero => rfl
          | succ n ih =>
            show (32 :: spaces n).dropWhile (· == 32) = []
            rw [List.dropWhile_cons, if_pos (by rfl), ih]
        exact key _
      · exact trim_spaces _ _
    have e3 : indent (trim st) = 0 := by
      unfold indent
      rw [e1, e2]
      dsimp only
      rcases ho2 with rfl | ⟨o', rfl⟩ <;> rfl
    dsimp only
    rw [if_neg (by omega)]
    have e4 : emit (spaces (trim st).margin) (trim st) = st := by
      show { st with out := (spaces st.margin).reverse ++ st.out.dropWhile (· == 32) } = st
      rw [e2, spaces_reverse, ← ho]
    rw [e4]
    exact (before_fold l st st [] [] hok rfl .nil ((Adds.refl hc).mono (by rintro _ rfl; simp))).1

section
variable {ft : FileType} {pr : Pr} (H : PrOK pr) (hS : PrC pr) (hH : PrH pr)
include H hS hH

omit H hS in
/-- `if x:` and `elif x:` -/
theorem hdrC {kw : Bytes} {k : Kind} (hk : (∃ x s, kw = x :: s ∧ isIdent x = true ∧ s.all isIdent = true) ∧ identKind kw = k ∧ depthChange k = 0) (hst : StartOK kw)
    {st st1 : St} {x : Expr} (h : Adds st st1 (· = kw ++ [32])) (hx : OkHead x) (ht : tupleTight x = true) (hd : st1.depth = 0) :
    AddsC st (emit b!":" (pr x 0 st1)) (fun t _ => YP false (fun as => ∃ as1, as = W k kw :: (as1 ++ [W 58 b!":"]) ∧ Gen as1 (.n .expr) (SE x)) t) := by
  have h1 := h.transC (fun hc => hH x st1 hx ht hc hd) (R := fun s _ => ∃ s1, s = kw ++ 32 :: s1 ∧ Y false .expr (SE x) s1)
    (by rintro _ s2 p _ rfl q; exact ⟨s2, by simp, q⟩)
  refine h1.emit (EndOK.single (by decide)) ?_
  rintro _ p _ ⟨s1, rfl, q1, q2, as1, q3, q4⟩
  have e : kw ++ 32 :: s1 ++ b!":" = kw ++ 32 :: (s1 ++ [58]) := by simp
  rw [e]
  refine ⟨hst.app, ((EndOK.app (EndOK.single (by decide))).cons).app, _, fun c hc => ?_, as1, rfl, q4⟩
  exact lx_kw hk follow32 (Lx.sp (Lx.appT q3 follow58 (lx_colon (Lx.nil false c))))

/-- the first branch -/
theorem if_firstC {x : Expr} {tr : List Expr} {st : St} (hc : Clean st) (hd : st.depth = 0) (hx : OkHead x) (ht : tupleTight x = true) (hl : stmtsOf tr ≠ []) (hok : ∀ s ∈ tr, OkStmtC s)
    (htt : ∀ s ∈ tr, tupleTight s = true) :
    AddsC st (nestedStatements ft pr tr (emit b!":" (pr x 0 (emit b!"if " st)))) (LnT st.margin (fun as => Gen as (.n (.ifChain false)) (VDv [(x, tr)] []))) ∧
      Mid (nestedStatements ft pr tr (emit b!":" (pr x 0 (emit b!"if " st)))) st.margin := by
  have k : Keep st (emit b!":" (pr x 0 (emit b!"if " st))) := (H.keep x 0 (emit b!"if " st))
  have h1 := hdrC hH (kw := b!"if") (k := K.if_) ⟨⟨_, _, rfl, by decide, by decide⟩, by decide, by decide⟩ ⟨105, _, rfl, by unfold Start; decide⟩
    (Adds.emit0 (t := b!"if ") hc rfl) hx ht hd
  obtain ⟨h2, h3⟩ := nestedC (ft := ft) hS H.keep h1 (k.1.trans hd) hl hok htt
  rw [k.2] at h2 h3
  refine ⟨h2.mono (fun t p _ q => q.mono ?_), h3⟩
  rintro _ ⟨_, a2, rfl, ⟨as1, rfl, g1⟩, g2⟩
  exact (c_if g1 g2).cast (by simp)

omit H hS hH in
theorem nlC_spec {st0 st : St} {m : Nat} {P : Bytes → List Comment → Prop} (ne : Bool) (h : AddsC st0 st P) (hm : Mid st m) :
    (∃ j, Adds st0 (nl ne st) (fun s => ∃ s0 p, s = s0 ++ (nlText m p ++ (List.replicate j 10 ++ spaces m)) ∧ ComsOK p ∧ P s0 p)) ∧ (nl ne st).margin = m ∧ (nl ne st).depth = 0 := by
  have e : newlineIfNeeded st = newline st := by unfold newlineIfNeeded; rw [hm.1]; rfl
  obtain ⟨j, h1, _, h3⟩ := nls_spec (!ne) h hm.2.1
  have e2 : (if (!ne) = true then newline st else newline (newline st)) = nl ne st := by unfold nl; rw [e]; cases ne <;> rfl
  rw [e2] at h1 h3
  exact ⟨⟨j, h1⟩, h3.2.trans hm.2.1, h3.1.trans hm.2.2⟩

/-- the other branches -/
theorem if_nextC {x : Expr} {tr : List Expr} {st0 st : St} {m : Nat} {l : List (Expr × List Expr)} (ne : Bool)
    (h : AddsC st0 st (LnT m (fun as => Gen as (.n (.ifChain false)) (VDv l [])))) (hm : Mid st m) (hx : OkHead x) (ht : tupleTight x = true) (hl : stmtsOf tr ≠ [])
    (hok : ∀ s ∈ tr, OkStmtC s) (htt : ∀ s ∈ tr, tupleTight s = true) :
    AddsC st0 (nestedStatements ft pr tr (emit b!":" (pr x 0 (emit b!"if " (emit b!"el" (nl ne st)))))) (LnT m (fun as => Gen as (.n (.ifChain false)) (VDv (l ++ [(x, tr)]) []))) ∧
      Mid (nestedStatements ft pr tr (emit b!":" (pr x 0 (emit b!"if " (emit b!"el" (nl ne st)))))) m := by
  obtain ⟨⟨j, n1⟩, n2, n3⟩ := nlC_spec ne h hm
  have k : Keep (nl ne st) (emit b!":" (pr x 0 (emit b!"if " (emit b!"el" (nl ne st))))) := (H.keep x 0 (emit b!"if " (emit b!"el" (nl ne st))))
  have h1 := hdrC hH (kw := b!"elif") (k := K.elif) (st := nl ne st) ⟨⟨_, _, rfl, by decide, by decide⟩, by decide, by decide⟩ ⟨101, _, rfl, by unfold Start; decide⟩
    ((Adds.emit0 (t := b!"el") (R := (· = b!"el")) n1.1 rfl).emit (t := b!"if ") (by rintro _ rfl; rfl)) hx ht n3
  obtain ⟨h2, h3⟩ := nestedC (ft := ft) hS H.keep h1 (k.1.trans n3) hl hok htt
  rw [k.2, n2] at h2 h3
  refine ⟨n1.transC (fun _ => h2) ?_, h3⟩
  rintro _ t2 p hp ⟨t0, p0, rfl, hp0, q0⟩ q k cs hcs
  obtain ⟨aj, hj⟩ := fil_blank j
  have := ((q0.end m).seq hj (q k cs hcs)).mono (Q := fun as => Gen as (.n (.ifChain false)) (VDv (l ++ [(x, tr)]) [])) (by
    rintro _ ⟨a0, _, rfl, g0, _, a2, rfl, ⟨as1, rfl, g1⟩, g2⟩
    exact (c_elif g0 g1 g2).cast (by simp))
  simpa using this

omit hH in
/-- the block after `else` -/
theorem if_elseC {els : List Expr} {st0 st : St} {m : Nat} {l : List (Expr × List Expr)} {R} {cs : List Comment} (ne : Bool) (hcs : ComsOK cs)
    (h : AddsC st0 st (LnT m (fun as => Gen as (.n (.ifChain false)) (VDv l [])))) (hm : Mid st m) (hl : stmtsOf els ≠ [])
    (hok : ∀ s ∈ els, OkStmtC s) (htt : ∀ s ∈ els, tupleTight s = true) (hs : ∀ v, VDv l els v → R v) :
    AddsC st0 (nestedStatements ft pr els { emit b!"else:" (nl ne st) with comment := (emit b!"else:" (nl ne st)).comment ++ cs }) (LnT m (fun as => Gen as (.n (.blockStmt false)) R)) := by
  obtain ⟨⟨j, n1⟩, n2, n3⟩ := nlC_spec ne h hm
  have hT : T false b!"else:" [W K.else_ b!"else", W 58 b!":"] := fun c hc =>
    lx_kw (t := b!"else") (s := b!":") (k := K.else_) ⟨⟨_, _, rfl, by decide, by decide⟩, by decide, by decide⟩ follow58 (lx_colon (Lx.nil false c))
  have h1 : AddsC (nl ne st) { emit b!"else:" (nl ne st) with comment := (emit b!"else:" (nl ne st)).comment ++ cs } (fun t _ => YP false (· = [W K.else_ b!"else", W 58 b!":"]) t) := by
    refine ⟨?_, fun hb => ⟨hb, b!"else:", rfl, ⟨b!"else", 58, rfl, by decide⟩, ⟨101, _, rfl, by unfold Start; decide⟩, ⟨b!"else", 58, rfl, by decide⟩, _, hT, rfl⟩⟩
    show ComsOK ((nl ne st).comment ++ cs)
    rw [n1.1.1]
    exact hcs
  obtain ⟨h2, _⟩ := nestedC (ft := ft) hS H.keep h1 n3 hl hok htt
  have e : ({ emit b!"else:" (nl ne st) with comment := (emit b!"else:" (nl ne st)).comment ++ cs } : St).margin = m := n2
  rw [e] at h2
  refine n1.transC (fun _ => h2) ?_
  rintro _ t2 p hp ⟨t0, p0, rfl, hp0, q0⟩ q k cs hcs
  obtain ⟨aj, hj⟩ := fil_blank j
  have := ((q0.end m).seq hj (q k cs hcs)).mono (Q := fun as => Gen as (.n (.blockStmt false)) R) (by
    rintro _ ⟨a0, _, rfl, g0, _, a2, rfl, rfl, g2⟩
    exact c_else g0 g2 (fun e => hl (by rw [e]; rfl)) hs)
  simpa using this

omit H hS hH in
theorem okIfC {c p x body ep els} (h : OkStmtC (.ifS c p x body ep els)) :
    OkHead x ∧ ComsOK ep.comments.suffix ∧ stmtsOf body ≠ [] ∧ (∀ s ∈ body, OkStmtC s) ∧ (els ≠ [] → stmtsOf els ≠ []) ∧ (∀ s ∈ els, OkStmtC s) := by
  cases h with
  | simple _ h _ _ => cases h
  | if_ _ _ _ _ _ _ h1 h2 h3 h4 h5 h6 h7 => exact ⟨h2, h3, h4, h5, h6, h7⟩

omit H hS hH in
theorem okBlockC {e : Expr} (h : OkStmtC e) (hb : isBlock e = true) : NodeOK e.comments := by
  cases h with
  | simple _ h _ _ => rw [h] at hb; cases hb
  | block => cases hb
  | def_ _ _ _ _ _ _ _ _ _ h => exact h
  | for_ _ _ _ _ _ h => exact h
  | if_ _ _ _ _ _ _ h => exact h

/-- the block after `else`, if there is one -/
def elseRest (ft : FileType) (pr : Pr) (tr : List Expr) (ep : EndN) (fa : List Expr) (st : St) : St :=
  if fa.isEmpty then st
  else nestedStatements ft pr fa { emit b!"else:" (nl (decide (ep.pos.line > (endPosLast tr).line + 1)) st) with
    comment := (emit b!"else:" (nl (decide (ep.pos.line > (endPosLast tr).line + 1)) st)).comment ++ ep.comments.suffix }

omit H hS hH in
/-- either there is another branch or the rest is printed as a block -/
theorem chainRest_cases (f : Nat) (tr : List Expr) (ep : EndN) (fa : List Expr) (st : St) :
    chainRest ft pr f tr ep fa st = elseRest ft pr tr ep fa st ∨
    ∃ c2 p2 co2 tr2 ep2 fa2, fa = [.ifS c2 p2 co2 tr2 ep2 fa2] ∧ chainRest ft pr f tr ep fa st = ifChain ft pr f false (decide (ep.pos.line > (endPosLast tr).line + 1)) co2 tr2 ep2 fa2 st := by
  unfold chainRest
  dsimp only
  split
  · rename_i c2 p2 co2 tr2 ep2 fa2
    by_cases h : (ep.comments.suffix.isEmpty && c2.before.isEmpty) = true
    · exact .inr ⟨c2, p2, co2, tr2, ep2, fa2, rfl, if_pos h⟩
    · refine .inl ((if_neg h).trans ?_)
      rfl
  · exact .inl rfl

theorem chainC : ∀ (f : Nat) {c p ep} {co : Expr} {tr : List Expr} {fa : List Expr} {st0 st : St} {m : Nat} {l : List (Expr × List Expr)} {w : Expr},
    AddsC st0 st (LnT m (fun as => Gen as (.n (.ifChain false)) (VDv (l ++ [(co, tr)]) []))) → Mid st m → Pre l (.ifS c p co tr ep fa) w → ComsOK ep.comments.suffix →
    (fa ≠ [] → stmtsOf fa ≠ []) → (∀ s ∈ fa, OkStmtC s) → (∀ s ∈ fa, tupleTight s = true) →
    AddsC st0 (chainRest ft pr f tr ep fa st) (LnT m (fun as => Gen as (.n (.blockStmt false)) (SSE w))) := by
  have els : ∀ {c p ep} {co : Expr} {tr : List Expr} {fa : List Expr} {st0 st : St} {m : Nat} {l : List (Expr × List Expr)} {w : Expr},
      AddsC st0 st (LnT m (fun as => Gen as (.n (.ifChain false)) (VDv (l ++ [(co, tr)]) []))) → Mid st m → Pre l (.ifS c p co tr ep fa) w → ComsOK ep.comments.suffix →
      (fa ≠ [] → stmtsOf fa ≠ []) → (∀ s ∈ fa, OkStmtC s) → (∀ s ∈ fa, tupleTight s = true) →
      AddsC st0 (elseRest ft pr tr ep fa st) (LnT m (fun as => Gen as (.n (.blockStmt false)) (SSE w))) := by
    intro c p ep co tr fa st0 st m l w h hm hp he hfa hok htt
    unfold elseRest
    cases fa with
    | nil => exact h.mono (fun t p _ q => q.mono (fun as g => c_noElse g (fun v hv => VD.same hv hp)))
    | cons x fa => exact if_elseC H hS _ he h hm (hfa (by simp)) hok htt (fun v hv => VD.same hv hp)
  intro f
  induction f with
  | zero =>
    intro c p ep co tr fa st0 st m l w h hm hp he hfa hok htt
    rcases chainRest_cases (ft := ft) (pr := pr) 0 tr ep fa st with e | ⟨c2, p2, co2, tr2, ep2, fa2, rfl, e⟩
    · rw [e]; exact els h hm hp he hfa hok htt
    · rw [e]
      exact ⟨h.1, fun hb => by cases hb⟩
  | succ f ih =>
    intro c p ep co tr fa st0 st m l w h hm hp he hfa hok htt
    rcases chainRest_cases (ft := ft) (pr := pr) (f + 1) tr ep fa st with e | ⟨c2, p2, co2, tr2, ep2, fa2, rfl, e⟩
    · rw [e]; exact els h hm hp he hfa hok htt
    · obtain ⟨h1, h2, h3, h4, h5, h6⟩ := okIfC (hok _ List.mem_cons_self)
      have ht := htt _ List.mem_cons_self
      unfold tupleTight at ht
      simp only [Bool.and_eq_true] at ht
      rw [e, ifChain_next (fun e => h3 (by rw [e]; rfl))]
      obtain ⟨a1, a2⟩ := if_nextC (ft := ft) H hS hH (decide (ep.pos.line > (endPosLast tr).line + 1)) h hm h1 ht.1.1 h3 h4 (tupleTightL_mem ht.1.2)
      exact ih a1 a2 hp.snoc h2 h5 h6 (tupleTightL_mem ht.2)

theorem ifC {c p x body ep els st f} (h : OkStmtC (.ifS c p x body ep els)) (ht : tupleTight (.ifS c p x body ep els) = true) (hc : Clean st) (hd : st.depth = 0) :
    AddsC st (exprBody ft pr f (.ifS c p x body ep els) 0 st) (LnT st.margin (fun as => Gen as (.n (.blockStmt false)) (SSE (.ifS c p x body ep els)))) := by
  unfold tupleTight at ht
  simp only [Bool.and_eq_true] at ht
  obtain ⟨h1, h2, h3, h4, h5, h6⟩ := okIfC h
  show AddsC st (ifChain ft pr f true false x body ep els st) _
  cases f with
  | zero => exact ⟨by show ComsOK st.comment; rw [hc.1]; exact comsOK_nil, fun hb => by cases hb⟩
  | succ f =>
    rw [ifChain_first hc (fun e => h3 (by rw [e]; rfl))]
    obtain ⟨a1, a2⟩ := if_firstC (ft := ft) H hS hH hc hd h1 ht.1.1 h3 h4 (tupleTightL_mem ht.1.2)
    exact chainC H hS hH f (l := []) a1 a2 (.nil _) h2 h5 h6 (tupleTightL_mem ht.2)

theorem forC {c p v x body st f} (hv : OkVars v) (hx : OkHead x) (hl : stmtsOf body ≠ []) (hok : ∀ s ∈ body, OkStmtC s) (ht : tupleTight (.forS c p v x body) = true) (hc : Clean st)
    (hd : st.depth = 0) : AddsC st (exprBody ft pr f (.forS c p v x body) 0 st) (LnT st.margin (fun as => Gen as (.n (.blockStmt false)) (SSE (.forS c p v x body)))) := by
  unfold tupleTight at ht
  simp only [Bool.and_eq_true] at ht
  show AddsC st (nestedStatements ft pr body (emit b!":" (pr x 0 (emit b!" in " (pr v 0 (emit b!"for " st)))))) _
  have k1 : Keep st (pr v 0 (emit b!"for " st)) := H.keep v 0 (emit b!"for " st)
  have k2 : Keep st (emit b!":" (pr x 0 (emit b!" in " (pr v 0 (emit b!"for " st))))) := k1.trans (H.keep x 0 (emit b!" in " (pr v 0 (emit b!"for " st))))
  have h1 := (Adds.emit0 (R := (· = b!"for ")) hc rfl).trans (fun hc' => H.vars v false _ hv hc' (fun _ => .inl ⟨hd, ht.1.1⟩)) (R := fun s => ∃ s1, s = b!"for " ++ s1 ∧ Y false .loopVars (SE v) s1)
    (by rintro _ s2 rfl q; exact ⟨s2, rfl, q⟩)
  have h2 := h1.emit (t := b!" in ") (R := fun s => ∃ s1, s = b!"for " ++ s1 ++ b!" in " ∧ Y false .loopVars (SE v) s1) (by rintro _ ⟨s1, rfl, q⟩; exact ⟨s1, rfl, q⟩)
  have h3 := h2.transC (fun hc' => hH x _ hx ht.1.2 hc' (k1.1.trans hd))
    (R := fun s _ => ∃ s1 s2, s = b!"for " ++ s1 ++ b!" in " ++ s2 ∧ Y false .loopVars (SE v) s1 ∧ Y false .expr (SE x) s2) (by rintro _ s2 p _ ⟨s1, rfl, q⟩ q2; exact ⟨s1, s2, rfl, q, q2⟩)
  have h4 := h3.emit (t := b!":") (R := fun t _ => YP false (fun as => ∃ as1 as2, as = W K.for_ b!"for" :: (as1 ++ (W K.in_ b!"in" :: (as2 ++ [W 58 b!":"]))) ∧
      Gen as1 (.n .loopVars) (SE v) ∧ Gen as2 (.n .expr) (SE x)) t) (EndOK.single (by decide)) (by
    rintro _ _ _ ⟨s1, s2, rfl, ⟨_, _, as1, q3, q4⟩, _, _, as2, r3, r4⟩
    have e : b!"for " ++ s1 ++ b!" in " ++ s2 ++ b!":" = b!"for" ++ 32 :: (s1 ++ 32 :: (b!"in" ++ 32 :: (s2 ++ [58]))) := by simp
    rw [e]
    refine ⟨StartOK.app ⟨102, _, rfl, by unfold Start; decide⟩, EndOK.app (EndOK.cons (EndOK.app (EndOK.cons (EndOK.app (EndOK.cons (EndOK.app (EndOK.single (by decide)))))))), _, fun c hc => ?_, as1, as2, rfl, q4, r4⟩
    exact lx_kw (k := K.for_) ⟨⟨_, _, rfl, by decide, by decide⟩, by decide, by decide⟩ follow32 (Lx.sp (Lx.appT q3 follow32 (Lx.sp
      (lx_kw (k := K.in_) ⟨⟨_, _, rfl, by decide, by decide⟩, by decide, by decide⟩ follow32 (Lx.sp (Lx.appT r3 follow58 (lx_colon (Lx.nil false c)))))))))
  obtain ⟨h5, _⟩ := nestedC (ft := ft) hS H.keep h4 (k2.1.trans hd) hl hok (tupleTightL_mem ht.2)
  rw [k2.2] at h5
  refine h5.mono (fun t p _ q => q.mono ?_)
  rintro _ ⟨_, a2, rfl, ⟨as1, as2, rfl, g1, g2⟩, g3⟩
  exact (c_for g1 g2 g3).cast (by simp)

omit hH in
theorem defC {c p name ps body cp fc fm ty st f} (hname : Name name) (hps : ∀ a ∈ ps, OkParam true a) (hty : ty.isNil = false → Ok ty) (hl : stmtsOf body ≠ []) (hok : ∀ s ∈ body, OkStmtC s)
    (ht : tupleTight (.defS c p name ps body cp fc fm ty) = true) (hc : Clean st) (hd : st.depth = 0) :
    AddsC st (exprBody ft pr f (.defS c p name ps body cp fc fm ty) 0 st) (LnT st.margin (fun as => Gen as (.n (.blockStmt false)) (SSE (.defS c p name ps body cp fc fm ty)))) := by
  unfold tupleTight at ht
  simp only [Bool.and_eq_true] at ht
  show AddsC st (nestedStatements ft pr body (emit b!":" (if ty.isNil then seq ft pr b!"(" b!")" p ps none .def_ fc fm (emit name (emit b!"def " st)) else
    pr ty 0 (emit b!" -> " (seq ft pr b!"(" b!")" p ps none .def_ fc fm (emit name (emit b!"def " st))))))) _
  have k1 : Keep st (seq ft pr b!"(" b!")" p ps none .def_ fc fm (emit name (emit b!"def " st))) := keep_seq H.keep _ _ _ _ _ _ _ _ (emit name (emit b!"def " st))
  have h0 := (Adds.emit0 (t := b!"def ") (R := (· = b!"def ")) hc rfl).emit (t := name) (R := (· = b!"def " ++ name)) (by rintro _ rfl; rfl)
  have h1 := h0.trans (fun hc' => seq_spec (ft := ft) (start := p) (e := none) (fc := fc) (fm := fm) (elem := fun x as => Gen as (.n .parameterType) (SE x)) (m := .def_) (o := 40) (c := 41) (by decide) (.inl rfl)
    (fun x hx => (hps x hx).isNil) (by rintro _ ⟨⟩) (fun x hx st hc => H.param true x true st (hps x hx) hc (dep_true _ _)) H.keep _ hc')
    (R := YP false (fun as => Gen as (.n .defHeader) (SDef name ps .nil))) (by
      rintro _ _ rfl ⟨s1, as, rfl, hs⟩
      have e : b!"def " ++ name ++ 40 :: (s1 ++ [41]) = b!"def" ++ 32 :: (name ++ 40 :: (s1 ++ [41])) := by simp
      rw [e]
      obtain ⟨e1, e2⟩ := group_ends (s := s1) (o := 40) (cl := 41) (.inl rfl) (.inl rfl)
      refine ⟨StartOK.app ⟨100, _, rfl, by unfold Start; decide⟩, ((e2.app).cons).app, _, fun c hc => ?_, g_header hs.all⟩
      exact lx_kw (k := K.def_) ⟨⟨_, _, rfl, by decide, by decide⟩, by decide, by decide⟩ follow32 (Lx.sp (Lx.appT (t_name hname) follow40 (lx_group (.inl rfl) (.inl rfl) hs.lex c hc))))
  generalize seq ft pr b!"(" b!")" p ps none .def_ fc fm (emit name (emit b!"def " st)) = st1 at h1 k1 ⊢
  have k2 : Keep st (if ty.isNil then st1 else pr ty 0 (emit b!" -> " st1)) := by
    cases ty.isNil
    · exact k1.trans (H.keep ty 0 (emit b!" -> " st1))
    · exact k1
  have h2 : Adds st (if ty.isNil then st1 else pr ty 0 (emit b!" -> " st1)) (YP false (fun as => Gen as (.n .defHeaderTypeOpt) (SDef name ps ty))) := by
    cases hn : ty.isNil with
    | true => rw [isNil_eq hn]; exact h1.mono (fun _ q => q.mono (fun _ g => g_headerType0 g))
    | false =>
      simp only [Bool.false_eq_true, if_false]
      have h3 := h1.emit (t := b!" -> ") (R := fun s => ∃ s0, s = s0 ++ b!" -> " ∧ YP false (fun as => Gen as (.n .defHeader) (SDef name ps .nil)) s0) (fun s q => ⟨s, rfl, q⟩)
      refine h3.trans (fun hc' => H.any (b := false) (hty hn) (Nat.zero_le 2) hc' (fun _ => .inl ⟨k1.1.trans hd, ht.1⟩)) ?_
      rintro _ s2 ⟨s0, rfl, q1, q2, as1, q3, q4⟩ ⟨_, r2, as2, r3, r4⟩
      have e : s0 ++ b!" -> " ++ s2 = s0 ++ 32 :: (b!"->" ++ 32 :: s2) := by simp
      rw [e]
      exact ⟨q1.app, ((r2.cons).app.cons).app, _, fun c hc => Lx.appT q3 follow32 (Lx.sp (Lx.pre (tok_arrow _) (by decide) (Lx.sp (r3 c hc)))), g_headerType1 q4 r4⟩
  generalize (if ty.isNil then st1 else pr ty 0 (emit b!" -> " st1)) = st2 at h2 k2 ⊢
  have h4 := h2.emit (t := b!":") (R := YP false (fun as => ∃ as1, as = as1 ++ [W 58 b!":"] ∧ Gen as1 (.n .defHeaderTypeOpt) (SDef name ps ty))) (by
    rintro s ⟨q1, q2, as1, q3, q4⟩
    exact ⟨q1.app, EndOK.app (EndOK.single (by decide)), _, fun c hc => Lx.appT q3 follow58 (lx_colon (Lx.nil false c)), as1, rfl, q4⟩)
  obtain ⟨h5, _⟩ := nestedC (ft := ft) hS H.keep ((h4.toN.toC (fun s q => q.2.1)).mono (Q := fun t _ => YP false _ t) (fun s p _ q => q.2)) (k2.1.trans hd) hl hok (tupleTightL_mem ht.2)
  rw [show (emit b!":" st2).margin = st.margin from k2.2] at h5
  refine h5.mono (fun t p _ q => q.mono ?_)
  rintro _ ⟨_, a2, rfl, ⟨as1, rfl, g1⟩, g3⟩
  exact (c_def g1 g3).cast (by simp)

omit hS hH in
/-- a simple statement -/
theorem simpleC {s : Expr} {st : St} {f : Nat} (h : OkStmt s) (hb : isBlock s = false) (ht : tupleTight s = true) (hc : Clean st) (hd : st.depth = 0) :
    Adds st (exprBody ft pr f s 0 st) (Y false .smallStmt (SE s)) := by
  cases h with
  | expr _ hx => exact (body_expr H hx (Nat.zero_le 2) hc (fun _ => .inl ⟨hd, ht⟩)).mono (fun _ q => q.mono (fun _ g => g_smallExpr g))
  | assign x p op lb y hop hx hy => exact p_assignStmt H hop hx hy ht hc hd
  | aug x p op lb y hop hx hy => exact p_augStmt H hop hx hy ht hc hd
  | return_ p x hx => exact p_return H hx ht hc hd
  | branch t p hbr => exact Adds.mono (P := (· = t)) (Adds.emit0 (t := t) hc rfl) (by rintro _ rfl; exact p_branch hbr)
  | def_ => cases hb
  | for_ => cases hb
  | if_ => cases hb

/-- the body of a statement, before its comments -/
theorem bodyC {s : Expr} {st : St} {f : Nat} (h : OkStmtC s) (hcb : isCommentBlock s = false) (ht : tupleTight s = true) (hc : Clean st) (hd : st.depth = 0) :
    AddsC st (exprBody ft pr f s 0 st) (LnT st.margin (ExtC [s])) ∧ NodeOK s.comments := by
  cases h with
  | simple _ hb hs hn =>
    have h1 := simpleC (ft := ft) (f := f) H hs (by rw [isBlock_set]; exact hb) (by rw [tupleTight_set]; exact ht) hc hd
    rw [body_set] at h1
    refine ⟨(h1.toN.toC (fun s q => q.2.1)).mono ?_, hn⟩
    rintro t p hp ⟨rfl, q⟩ k cs hcs
    obtain ⟨aw, hw⟩ := nlText_end k hcs
    exact LnC.simple (q.mono (fun as g => g.mono (fun v hv => same_unset hv))) hb hcb hw
  | block => cases hcb
  | def_ c p name ps body cp fc fm ty h0 h1 h2 h3 h4 h5 => exact ⟨(defC (ft := ft) H hS h1 h2 h3 h4 h5 ht hc hd).mono (fun t p _ q => q.mono (fun as g => extC_block rfl g)), h0⟩
  | for_ c p v x body h0 h1 h2 h3 h4 => exact ⟨(forC (ft := ft) H hS hH h1 h2 h3 h4 ht hc hd).mono (fun t p _ q => q.mono (fun as g => extC_block rfl g)), h0⟩
  | if_ c p x body ep els h0 h1 h2 h3 h4 h5 h6 =>
    exact ⟨(ifC (ft := ft) H hS hH (.if_ c p x body ep els h0 h1 h2 h3 h4 h5 h6) ht hc hd).mono (fun t p _ q => q.mono (fun as g => extC_block rfl g)), h0⟩

end

theorem prH (ft : FileType) : ∀ f, PrH (expr ft f) := by
  intro f x st hx ht hc hd
  cases f with
  | zero => exact ⟨by show ComsOK st.comment; rw [hc.1]; exact comsOK_nil, fun hb => by cases hb⟩
  | succ f =>
    have h1 : newlineIfNeeded st = st := by unfold newlineIfNeeded; rw [hc.2]; rfl
    have e : expr ft (f + 1) x 0 st = { exprBody ft (expr ft f) f x 0 st with comment := (exprBody ft (expr ft f) f x 0 st).comment ++ x.comments.suffix } := by
      show { exprBody ft (expr ft f) f x 0 (beforeComments x.comments.before (newlineIfNeeded st)) with
        comment := (exprBody ft (expr ft f) f x 0 (beforeComments x.comments.before (newlineIfNeeded st))).comment ++ x.comments.suffix } = _
      rw [h1, hx.2.1]
      rfl
    have h2 := body_expr (ft := ft) (f := f) (o := 0) (b := false) (prOK ft f) hx.1 (Nat.zero_le 2) hc (fun _ => .inl ⟨hd, by rw [tupleTight_set]; exact ht⟩)
    rw [body_set] at h2
    rw [e]
    refine ⟨?_, fun hb => ?_⟩
    · show ComsOK (_ ++ x.comments.suffix)
      rw [h2.1.1]
      exact hx.2.2
    · obtain ⟨b0, s, es, q⟩ := h2.2 hb
      exact ⟨b0, s, es, q.2.1, q.mono (fun as g => g.mono (fun v hv => same_unset hv))⟩

theorem prC (ft : FileType) : ∀ f, PrC (expr ft f) := by
  intro f
  induction f with
  | zero => intro s st _ _ hc _ _; exact ⟨fun _ => ⟨by show ComsOK st.comment; rw [hc.1]; exact comsOK_nil, fun hb => by cases hb⟩, fun _ => .inr rfl⟩
  | succ f ih =>
    intro s st h ht hc hf hd
    have h1 : newlineIfNeeded st = st := by unfold newlineIfNeeded; rw [hc.2]; rfl
    have e : expr ft (f + 1) s 0 st = { exprBody ft (expr ft f) f s 0 (beforeComments s.comments.before st) with
        comment := (exprBody ft (expr ft f) f s 0 (beforeComments s.comments.before st)).comment ++ s.comments.suffix } := by
      show { exprBody ft (expr ft f) f s 0 (beforeComments s.comments.before (newlineIfNeeded st)) with
        comment := (exprBody ft (expr ft f) f s 0 (beforeComments s.comments.before (newlineIfNeeded st))).comment ++ s.comments.suffix } = _
      rw [h1]
    refine ⟨fun hcb => ?_, fun hcb => .inl ?_⟩
    · have hn : NodeOK s.comments := by
        cases h with
        | simple _ _ _ hn => exact hn
        | block => cases hcb
        | def_ _ _ _ _ _ _ _ _ _ h => exact h
        | for_ _ _ _ _ _ h => exact h
        | if_ _ _ _ _ _ _ h => exact h
      obtain ⟨⟨g, ag, hg, hb⟩, hk⟩ := before_spec hn.1 hc hf
      have h2 := (bodyC (ft := ft) (f := f) (prOK ft f) ih (prH ft f) h hcb ht hb.1 (hk.1.trans hd)).1
      rw [hk.2] at h2
      have h3 := hb.transC (fun _ => h2) (R := fun t p => ∀ k q, ComsOK q → Blk st.margin [s] (t ++ nlText k (p ++ q))) (by
        rintro s1 s2 p hp q1 q2 k q hq
        refine .inr ⟨g, ag, s2 ++ nlText k (p ++ q), hg, ?_, q2 k q hq⟩
        rw [← List.append_assoc, ← List.append_assoc, q1]
        simp)
      rw [e]
      refine ⟨?_, fun hb' => ?_⟩
      · intro c hc'
        rcases List.mem_append.1 hc' with hc' | hc'
        · exact h3.1 c hc'
        · exact hn.2.1 c hc'
      · obtain ⟨b0, t, et, he, q⟩ := h3.2 hb'
        refine ⟨b0, t, et, he, fun k cs hcs => ?_⟩
        show Blk _ _ (t ++ nlText k (_ ++ s.comments.suffix ++ cs))
        rw [List.append_assoc]
        exact q k _ (fun c hc' => (List.mem_append.1 hc').elim (hn.2.1 c) (hcs c))
    · rw [e]
      cases h with
      | simple _ _ h _ =>
        have := h.noBlock
        rw [isCommentBlock_set, hcb] at this
        cases this
      | block c p h1 h2 =>
        show ({ beforeComments c.before st with comment := (beforeComments c.before st).comment ++ c.suffix } : St) = st
        rw [h1, h2]
        show ({ st with comment := st.comment ++ [] } : St) = st
        rw [List.append_nil]
      | _ => cases hcb

end Verif.Round
