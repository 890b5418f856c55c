import Verif.Proofs.PrintS
/-
Printed `if` statements and all other statements can be read back.
-/
namespace Verif.Round
open Verif Verif.Syntax Verif.Lexer Verif.Print Verif.Parser Verif.Grammar Verif.Props.Grammar

/-- the text reads, line by line, as tokens with property `P` -/
def Ln (m : Nat) (P : List ATok → Prop) (t : Bytes) : Prop := StartOK t ∧ EndOK t ∧ ∀ n, ∃ as, LS m t (n + 1) as ∧ NC as ∧ P as

theorem Ln.mono {m P Q t} (h : Ln m P t) (h' : ∀ as, NC as → P as → Q as) : Ln m Q t :=
  ⟨h.1, h.2.1, fun n => by obtain ⟨as, a, b, c⟩ := h.2.2 n; exact ⟨as, a, b, h' as b c⟩⟩

theorem Ln.seq {m P Q t1 t2} (j : Nat) (h1 : Ln m P t1) (h2 : Ln m Q t2) :
    Ln m (fun as => ∃ a1 a2, as = a1 ++ a2 ∧ P a1 ∧ Q a2) ((t1 ++ (List.replicate (j + 1) 10 ++ spaces m)) ++ t2) := by
  obtain ⟨a1, a2, a3⟩ := h1
  obtain ⟨b1, b2, b3⟩ := h2
  refine ⟨(a1.app).app, b2.app, fun n => ?_⟩
  obtain ⟨as1, l1, n1, p1⟩ := a3 j
  obtain ⟨as2, l2, n2, p2⟩ := b3 n
  refine ⟨as1 ++ as2, ?_, n1.app n2, as1, as2, rfl, p1, p2⟩
  have := ls_seq l1 b1 l2
  simpa using this

theorem Ln.block {m s t} (h : Ln m (fun as => Gen as (.n (.blockStmt false)) (SE s)) t) : StmtT m [s] t :=
  ⟨h.1, h.2.1, fun n => by obtain ⟨as, a, b, c⟩ := h.2.2 n; exact ⟨as, a, ext_block c b⟩⟩

theorem AddsN.block {st st' : St} {m s} (h : AddsN st st' (Ln m (fun as => Gen as (.n (.blockStmt false)) (SE s)))) : AddsN st st' (StmtT m [s]) :=
  h.mono (fun _ q => q.block)

/-- the printer is between two lines -/
def Mid (st : St) (m : Nat) : Prop := st.needsNL = true ∧ st.margin = m ∧ st.depth = 0

/-- the state after a line end or two -/
def nl (ne : Bool) (st : St) : St := if ne then newline (newlineIfNeeded st) else newlineIfNeeded st

theorem nl_spec {st0 st : St} {m P} (ne : Bool) (h : AddsN st0 st (Ln m P)) (hm : Mid st m) :
    (∃ j, Adds st0 (nl ne st) (fun t => ∃ t0, t = t0 ++ (List.replicate (j + 1) 10 ++ spaces m) ∧ Ln m P t0)) ∧ (nl ne st).margin = m ∧ (nl ne st).depth = 0 := by
  have e : newlineIfNeeded st = newline st := by unfold newlineIfNeeded; rw [hm.1]; rfl
  have n1 := AddsN.newline h (fun t q => q.2.1)
  have k1 := keep_newline st
  rw [hm.2.1] at n1
  unfold nl
  rw [e]
  cases ne
  · exact ⟨⟨0, n1⟩, k1.2.trans hm.2.1, k1.1.trans hm.2.2⟩
  · have n2 := n1.newline2
    rw [k1.2, hm.2.1] at n2
    have k2 := k1.trans (keep_newline (newline st))
    exact ⟨⟨1, n2⟩, k2.2.trans hm.2.1, k2.1.trans hm.2.2⟩

theorem keep_emit' (t : Bytes) (st : St) : Keep st (emit t st) := ⟨rfl, rfl⟩

/-- a block after its header -/
def BlockG (P : List ATok → Prop) (l : List Expr) (as : List ATok) : Prop := ∃ ah a2, as = ah ++ (NL :: IND :: (a2 ++ [UNIND])) ∧ P ah ∧ StmtsG l a2

section
variable {ft : FileType} {pr : Pr} (H : PrOK pr) (hS : PrS pr)
include H hS

theorem nested_ln {l : List Expr} {st0 st : St} {P : List ATok → Prop} (h : Adds st0 st (YP false P)) (hd : st.depth = 0) (hl : l ≠ []) (hok : ∀ s ∈ l, OkStmt s)
    (htt : ∀ s ∈ l, tupleTight s = true) :
    AddsN st0 (nestedStatements ft pr l st) (Ln st.margin (BlockG P l)) ∧ Mid (nestedStatements ft pr l st) st.margin := by
  obtain ⟨h1, h2⟩ := nested_spec (ft := ft) hS H.keep h hd hl hok htt
  refine ⟨h1.mono ?_, h2, ?_⟩
  · rintro t ⟨q1, q2, q3⟩
    refine ⟨q1, q2, fun n => ?_⟩
    obtain ⟨ah, as, w1, w2, w3, w4⟩ := q3 n
    exact ⟨_, w1, w2.app (nc_suite w4.1), ah, as, rfl, w3, w4.stmts⟩
  · have k := keep_nested (ft := ft) H.keep l st
    exact ⟨k.2, k.1.trans hd⟩

omit hS in
/-- `if x:` and `elif x:` -/
theorem hdr_spec {kw : Bytes} {k : Kind} (hk : (∃ x s, kw = x :: s ∧ isIdent x = true ∧ s.all isIdent = true) ∧ identKind kw = k ∧ depthChange k = 0) (hst : StartOK kw)
    {st st1 : St} {x : Expr} (h : Adds st st1 (· = kw ++ [32])) (hx : OkExpr x) (ht : tupleTight x = true) (hd : st1.depth = 0) :
    Adds st (emit b!":" (pr x 0 st1)) (YP false (fun as => ∃ as1, as = W k kw :: (as1 ++ [W 58 b!":"]) ∧ Gen as1 (.n .expr) (SE x))) := by
  have h1 := h.trans (fun hc => H.expr x 0 false st1 hx (by omega) hc (fun _ => .inl ⟨hd, ht⟩)) (R := fun s => ∃ s1, s = kw ++ 32 :: s1 ∧ Y false .expr (SE x) s1)
    (by rintro _ s2 rfl q; exact ⟨s2, by simp, q⟩)
  refine h1.emit ?_
  rintro _ ⟨s1, rfl, q1, q2, as1, q3, q4⟩
  have e : kw ++ 32 :: s1 ++ b!":" = kw ++ 32 :: (s1 ++ [58]) := by simp
  rw [e]
  refine ⟨hst.app, ((EndOK.app (EndOK.single (by decide))).cons).app, _, fun c hc => ?_, as1, rfl, q4⟩
  exact lx_kw hk follow32 (Lx.sp (Lx.appT q3 follow58 (lx_colon (Lx.nil false c))))

/-- the first branch -/
theorem if_first {x : Expr} {tr : List Expr} {st : St} (hc : Clean st) (hd : st.depth = 0) (hx : OkExpr x) (ht : tupleTight x = true) (hl : tr ≠ []) (hok : ∀ s ∈ tr, OkStmt s)
    (htt : ∀ s ∈ tr, tupleTight s = true) :
    AddsN st (nestedStatements ft pr tr (emit b!":" (pr x 0 (emit b!"if " st)))) (Ln st.margin (fun as => Gen as (.n (.ifChain false)) (VCv [(x, tr)] []))) ∧
      Mid (nestedStatements ft pr tr (emit b!":" (pr x 0 (emit b!"if " st)))) st.margin := by
  have k : Keep st (emit b!":" (pr x 0 (emit b!"if " st))) := (H.keep x 0 (emit b!"if " st))
  have h1 := hdr_spec H (kw := b!"if") (k := K.if_) ⟨⟨_, _, rfl, by decide, by decide⟩, by decide, by decide⟩ ⟨105, _, rfl, by unfold Start; decide⟩
    (Adds.emit0 (t := b!"if ") hc rfl) hx ht hd
  obtain ⟨h2, h3⟩ := nested_ln (ft := ft) H hS h1 (k.1.trans hd) hl hok htt
  rw [k.2] at h2 h3
  refine ⟨h2.mono (fun t q => q.mono ?_), h3⟩
  rintro _ _ ⟨_, a2, rfl, ⟨as1, rfl, g1⟩, g2⟩
  exact (g_if g1 g2).cast (by simp)

/-- the other branches -/
theorem if_next {x : Expr} {tr : List Expr} {st0 st : St} {m : Nat} {l : List (Expr × List Expr)} (ne : Bool)
    (h : AddsN st0 st (Ln m (fun as => Gen as (.n (.ifChain false)) (VCv l [])))) (hm : Mid st m) (hx : OkExpr x) (ht : tupleTight x = true) (hl : tr ≠ [])
    (hok : ∀ s ∈ tr, OkStmt s) (htt : ∀ s ∈ tr, tupleTight s = true) :
    AddsN st0 (nestedStatements ft pr tr (emit b!":" (pr x 0 (emit b!"if " (emit b!"el" (nl ne st)))))) (Ln m (fun as => Gen as (.n (.ifChain false)) (VCv (l ++ [(x, tr)]) []))) ∧
      Mid (nestedStatements ft pr tr (emit b!":" (pr x 0 (emit b!"if " (emit b!"el" (nl ne st)))))) m := by
  obtain ⟨⟨j, n1⟩, n2, n3⟩ := nl_spec ne h hm
  have k : Keep (nl ne st) (emit b!":" (pr x 0 (emit b!"if " (emit b!"el" (nl ne st))))) := (H.keep x 0 (emit b!"if " (emit b!"el" (nl ne st))))
  have h1 := hdr_spec H (kw := b!"elif") (k := K.elif) (st := nl ne st) ⟨⟨_, _, rfl, by decide, by decide⟩, by decide, by decide⟩ ⟨101, _, rfl, by unfold Start; decide⟩
    ((Adds.emit0 (t := b!"el") (R := (· = b!"el")) n1.1 rfl).emit (t := b!"if ") (by rintro _ rfl; rfl)) hx ht n3
  obtain ⟨h2, h3⟩ := nested_ln (ft := ft) H hS h1 (k.1.trans n3) hl hok htt
  rw [k.2, n2] at h2 h3
  refine ⟨n1.transN (fun _ => h2) ?_, h3⟩
  rintro _ t2 ⟨t0, rfl, q0⟩ q
  refine (q0.seq j q).mono ?_
  rintro _ _ ⟨a0, _, rfl, g0, _, a2, rfl, ⟨as1, rfl, g1⟩, g2⟩
  exact (g_elif g0 g1 g2).cast (by simp)

/-- the block after `else` -/
theorem if_else {els : List Expr} {st0 st : St} {m : Nat} {l : List (Expr × List Expr)} {R} (ne : Bool)
    (h : AddsN st0 st (Ln m (fun as => Gen as (.n (.ifChain false)) (VCv l [])))) (hm : Mid st m) (hl : els ≠ [])
    (hok : ∀ s ∈ els, OkStmt s) (htt : ∀ s ∈ els, tupleTight s = true) (hs : ∀ v, VCv l els v → R v) :
    AddsN st0 (nestedStatements ft pr els (emit b!"else:" (nl ne st))) (Ln m (fun as => Gen as (.n (.blockStmt false)) R)) ∧
      Mid (nestedStatements ft pr els (emit b!"else:" (nl ne st))) m := by
  obtain ⟨⟨j, n1⟩, n2, n3⟩ := nl_spec ne h hm
  have h1 : Adds (nl ne st) (emit b!"else:" (nl ne st)) (YP false (· = [W K.else_ b!"else", W 58 b!":"])) := by
    refine Adds.emit0 n1.1 ⟨⟨101, _, rfl, by unfold Start; decide⟩, ⟨b!"else", 58, rfl, by decide⟩, _, fun c hc => ?_, rfl⟩
    exact lx_kw (t := b!"else") (s := b!":") (k := K.else_) ⟨⟨_, _, rfl, by decide, by decide⟩, by decide, by decide⟩ follow58 (lx_colon (Lx.nil false c))
  obtain ⟨h2, h3⟩ := nested_ln (ft := ft) H hS h1 n3 hl hok htt
  have e : (emit b!"else:" (nl ne st)).margin = m := n2
  rw [e] at h2 h3
  refine ⟨n1.transN (fun _ => h2) ?_, h3⟩
  rintro _ t2 ⟨t0, rfl, q0⟩ q
  refine (q0.seq j q).mono ?_
  rintro _ _ ⟨a0, _, rfl, g0, _, a2, rfl, rfl, g2⟩
  exact g_else g0 g2 hs

/-- what follows a branch -/
def chainRest (ft : FileType) (pr : Pr) (f : Nat) (tr : List Expr) (ep : EndN) (fa : List Expr) (st : St) : St :=
  let needsEmpty := decide (ep.pos.line > (endPosLast tr).line + 1)
  let elseBlock (st : St) : St :=
    if fa.isEmpty then st
    else
      let st := emit b!"else:" (nl needsEmpty st)
      nestedStatements ft pr fa { st with comment := st.comment ++ ep.comments.suffix }
  match fa with
  | [.ifS c2 _ co2 tr2 ep2 fa2] =>
    if ep.comments.suffix.isEmpty && c2.before.isEmpty then ifChain ft pr f false needsEmpty co2 tr2 ep2 fa2 st
    else elseBlock st
  | _ => elseBlock st

omit H hS in
theorem ifChain_first {f : Nat} {ne : Bool} {co : Expr} {tr : List Expr} {ep : EndN} {fa : List Expr} {st : St} (hc : Clean st) (hl : tr ≠ []) :
    ifChain ft pr (f + 1) true ne co tr ep fa st = chainRest ft pr f tr ep fa (nestedStatements ft pr tr (emit b!":" (pr co 0 (emit b!"if " st)))) := by
  have h1 : newlineIfNeeded st = st := by unfold newlineIfNeeded; rw [hc.2]; rfl
  have h2 : tr.isEmpty = false := by cases tr <;> first | exact absurd rfl hl | rfl
  unfold ifChain
  rw [h1, h2]
  rfl

omit H hS in
theorem ifChain_next {f : Nat} {ne : Bool} {co : Expr} {tr : List Expr} {ep : EndN} {fa : List Expr} {st : St} (hl : tr ≠ []) :
    ifChain ft pr (f + 1) false ne co tr ep fa st = chainRest ft pr f tr ep fa (nestedStatements ft pr tr (emit b!":" (pr co 0 (emit b!"if " (emit b!"el" (nl ne st)))))) := by
  have h2 : tr.isEmpty = false := by cases tr <;> first | exact absurd rfl hl | rfl
  unfold ifChain
  rw [h2]
  rfl

omit H hS in
theorem okIf {c p x body ep els} (h : OkStmt (.ifS c p x body ep els)) :
    c = {} ∧ ep.comments = {} ∧ OkExpr x ∧ body ≠ [] ∧ (∀ s ∈ body, OkStmt s) ∧ (∀ s ∈ els, OkStmt s) := by
  cases h with
  | expr _ h => cases h with | one _ h => cases h
  | if_ _ _ _ _ _ h1 h2 h3 h4 h5 => exact ⟨rfl, h1, h2, h3, h4, h5⟩

omit H hS in
theorem chainRest_else {f : Nat} {tr : List Expr} {ep : EndN} {fa : List Expr} {st : St} (he : ep.comments = {}) (hfa : ∀ c p x b e l, fa ≠ [.ifS c p x b e l]) :
    chainRest ft pr f tr ep fa st = if fa.isEmpty then st else
      nestedStatements ft pr fa (emit b!"else:" (nl (decide (ep.pos.line > (endPosLast tr).line + 1)) st)) := by
  have e : ∀ s : St, ({ s with comment := s.comment ++ ep.comments.suffix } : St) = s := by intro s; rw [he]; simp
  unfold chainRest
  dsimp only
  split
  · exact absurd rfl (hfa _ _ _ _ _ _)
  · rw [e]

theorem chain_spec : ∀ (f : Nat) {c p ep} {co : Expr} {tr : List Expr} {fa : List Expr} {st0 st : St} {m : Nat} {l : List (Expr × List Expr)} {w : Expr},
    AddsN st0 st (Ln m (fun as => Gen as (.n (.ifChain false)) (VCv (l ++ [(co, tr)]) []))) → Mid st m → Pre l (.ifS c p co tr ep fa) w → ep.comments = {} →
    (∀ s ∈ fa, OkStmt s) → (∀ s ∈ fa, tupleTight s = true) →
    AddsN st0 (chainRest ft pr f tr ep fa st) (Ln m (fun as => Gen as (.n (.blockStmt false)) (SE w))) := by
  have els : ∀ (f : Nat) {c p ep} {co : Expr} {tr : List Expr} {fa : List Expr} {st0 st : St} {m : Nat} {l : List (Expr × List Expr)} {w : Expr},
      AddsN st0 st (Ln m (fun as => Gen as (.n (.ifChain false)) (VCv (l ++ [(co, tr)]) []))) → Mid st m → Pre l (.ifS c p co tr ep fa) w → ep.comments = {} →
      (∀ s ∈ fa, OkStmt s) → (∀ s ∈ fa, tupleTight s = true) → (∀ c p x b e l, fa ≠ [.ifS c p x b e l]) →
      AddsN st0 (chainRest ft pr f tr ep fa st) (Ln m (fun as => Gen as (.n (.blockStmt false)) (SE w))) := by
    intro f c p ep co tr fa st0 st m l w h hm hp he hok htt hfa
    rw [chainRest_else he hfa]
    cases fa with
    | nil =>
      exact h.mono (fun t q => q.mono (fun as _ g => g_noElse g (fun v hv => hv.same hp)))
    | cons x fa =>
      exact (if_else H hS _ h hm (by simp) hok htt (fun v hv => hv.same hp)).1
  intro f
  induction f with
  | zero =>
    intro c p ep co tr fa st0 st m l w h hm hp he hok htt
    by_cases hfa : ∃ c p x b e l, fa = [.ifS c p x b e l]
    · obtain ⟨c2, p2, co2, tr2, ep2, fa2, rfl⟩ := hfa
      obtain ⟨rfl, h1, h2, h3, h4, h5⟩ := okIf (hok _ List.mem_cons_self)
      have e : chainRest ft pr 0 tr ep [.ifS {} p2 co2 tr2 ep2 fa2] st = { st with bad := true } := by
        unfold chainRest
        dsimp only
        rw [he]
        rfl
      rw [e]
      exact ⟨h.1, fun hb => by cases hb⟩
    · exact els 0 h hm hp he hok htt (fun c p x b e l h => hfa ⟨_, _, _, _, _, _, h⟩)
  | succ f ih =>
    intro c p ep co tr fa st0 st m l w h hm hp he hok htt
    by_cases hfa : ∃ c p x b e l, fa = [.ifS c p x b e l]
    · obtain ⟨c2, p2, co2, tr2, ep2, fa2, rfl⟩ := hfa
      obtain ⟨rfl, h1, h2, h3, h4, h5⟩ := okIf (hok _ List.mem_cons_self)
      have ht := htt _ List.mem_cons_self
      unfold tupleTight at ht
      simp only [Bool.and_eq_true] at ht
      have e : chainRest ft pr (f + 1) tr ep [.ifS {} p2 co2 tr2 ep2 fa2] st = ifChain ft pr (f + 1) false (decide (ep.pos.line > (endPosLast tr).line + 1)) co2 tr2 ep2 fa2 st := by
        unfold chainRest
        dsimp only
        rw [he]
        rfl
      rw [e, ifChain_next h3]
      obtain ⟨a1, a2⟩ := if_next (ft := ft) H hS (decide (ep.pos.line > (endPosLast tr).line + 1)) h hm h2 ht.1.1 h3 h4 (tupleTightL_mem ht.1.2)
      exact ih a1 a2 hp.snoc h1 h5 (tupleTightL_mem ht.2)
    · exact els _ h hm hp he hok htt (fun c p x b e l h => hfa ⟨_, _, _, _, _, _, h⟩)

omit H hS in
theorem g_smallExpr {x as} (h : Gen as (.n .expr) (SE x)) : Gen as (.n .smallStmt) (SE x) := Gen.prod1 Fm.smallStmt_30 (by decide) h (fun v q => ⟨v, rfl, q⟩)

omit H hS in
theorem g_assignStmt {c x p op lb y as1 as2} (hop : op ∈ assignOps) (hx : Gen as1 (.n .expr) (SE x)) (hy : Gen as2 (.n .expr) (SE y)) :
    Gen (as1 ++ (opToks op ++ as2)) (.n .smallStmt) (SE (.assign c x p op lb y)) := by
  have key : ∀ (k : Kind) (r : Nat) (_ : (FNT.smallStmt, r, [FSym.n .expr, FSym.t k, FSym.n .expr]) ∈ fine) (_ : r ≠ 0)
      (_ : ∀ v1 v2 v3, sem r [v1, v2, v3] = some { v1 with expr := mkBinary v1.expr v2.pos v2.tok v3.expr }) (_ : isAssignOp op = true),
      Gen (as1 ++ ([W k op] ++ as2)) (.n .smallStmt) (SE (.assign c x p op lb y)) := by
    intro k r hm hr hs ha
    refine Gen.prod3 hm hr hx (gtok k op) hy (fun v1 v2 v3 q1 q2 q3 => ⟨_, hs v1 v2 v3, ?_⟩)
    show Same _ (mkBinary v1.expr v2.pos v2.tok v3.expr)
    rw [show v2.tok = op from q2.tok]
    unfold mkBinary
    rw [if_pos ha]
    exact Same.assign _ _ _ _ _ _ _ _ _ _ _ q1 q3
  simp only [assignOps, List.mem_cons, List.not_mem_nil, or_false] at hop
  rcases hop with rfl | hop
  · exact key _ 33 Fm.smallStmt_33 (by decide) (fun _ _ _ => rfl) (by decide)
  · rcases hop with rfl | rfl | rfl | rfl | rfl | rfl | rfl <;> exact key _ 34 Fm.smallStmt_34 (by decide) (fun _ _ _ => rfl) (by decide)

omit H hS in
theorem g_augStmt {c x p op lb y as1 as2} (hop : op ∈ augOps) (hx : Gen as1 (.n .expr) (SE x)) (hy : Gen as2 (.n .expr) (SE y)) :
    Gen (as1 ++ (opToks op ++ as2)) (.n .smallStmt) (SE (.binary c x p op lb y)) := by
  have key : ∀ (_ : isAssignOp op = false), Gen (as1 ++ ([W K.augm op] ++ as2)) (.n .smallStmt) (SE (.binary c x p op lb y)) := by
    intro ha
    refine Gen.prod3 Fm.smallStmt_34 (by decide) hx (gtok K.augm op) hy (fun v1 v2 v3 q1 q2 q3 => ⟨_, rfl, ?_⟩)
    show Same _ (mkBinary v1.expr v2.pos v2.tok v3.expr)
    rw [show v2.tok = op from q2.tok]
    unfold mkBinary
    rw [if_neg (by rw [ha]; decide)]
    exact Same.binary _ _ _ _ _ _ _ _ _ _ _ q1 q3
  simp only [augOps, List.mem_cons, List.not_mem_nil, or_false] at hop
  rcases hop with rfl | rfl | rfl | rfl <;> exact key (by decide)

omit H hS in
theorem g_return0 {c p} : Gen [W K.return_ b!"return"] (.n .smallStmt) (SE (.returnS c p .nil)) :=
  Gen.prod1 Fm.smallStmt_32 (by decide) (gtok K.return_ b!"return") (fun v _ => ⟨_, rfl, .returnS _ _ _ _ _ _ .nil⟩)

omit H hS in
theorem g_return1 {c p x as} (h : Gen as (.n .expr) (SE x)) : Gen (W K.return_ b!"return" :: as) (.n .smallStmt) (SE (.returnS c p x)) :=
  Gen.prod2 Fm.smallStmt_31 (by decide) (gtok K.return_ b!"return") h (fun v w _ q => ⟨_, rfl, .returnS _ _ _ _ _ _ q⟩)

omit H hS in
theorem t_kw0 {b t} {k : Kind} (h : (∃ x s, t = x :: s ∧ isIdent x = true ∧ s.all isIdent = true) ∧ identKind t = k ∧ depthChange k = 0) : T b t [W k t] := by
  intro c hc
  have := lx_kw (b := b) (s := []) (c := c) h hc (Lx.nil b c)
  simpa using this

omit H hS in
theorem p_branch {c t p} (ht : t ∈ [b!"pass", b!"break", b!"continue"]) : Y false .smallStmt (SE (.branch c t p)) t := by
  have key : ∀ (k : Kind) (r : Nat) (_ : (FNT.smallStmt, r, [FSym.t k]) ∈ fine) (_ : r ≠ 0) (_ : ∀ v1, sem r [v1] = some { v1 with expr := .branch {} v1.tok v1.pos }),
      Gen [W k t] (.n .smallStmt) (SE (.branch c t p)) := by
    intro k r hm hr hs
    refine Gen.prod1 hm hr (gtok k t) (fun v1 q => ⟨_, hs v1, ?_⟩)
    show Same _ (.branch {} v1.tok v1.pos)
    rw [show v1.tok = t from q.tok]
    exact Same.branch _ _ _ _ _
  simp only [List.mem_cons, List.not_mem_nil, or_false] at ht
  rcases ht with rfl | rfl | rfl
  · exact ⟨⟨112, _, rfl, by unfold Start; decide⟩, ⟨b!"pas", 115, rfl, by decide⟩, _, t_kw0 ⟨⟨_, _, rfl, by decide, by decide⟩, by decide, by decide⟩,
      key _ 35 Fm.smallStmt_35 (by decide) (fun _ => rfl)⟩
  · exact ⟨⟨98, _, rfl, by unfold Start; decide⟩, ⟨b!"brea", 107, rfl, by decide⟩, _, t_kw0 ⟨⟨_, _, rfl, by decide, by decide⟩, by decide, by decide⟩,
      key _ 36 Fm.smallStmt_36 (by decide) (fun _ => rfl)⟩
  · exact ⟨⟨99, _, rfl, by unfold Start; decide⟩, ⟨b!"continu", 101, rfl, by decide⟩, _, t_kw0 ⟨⟨_, _, rfl, by decide, by decide⟩, by decide, by decide⟩,
      key _ 37 Fm.smallStmt_37 (by decide) (fun _ => rfl)⟩

omit hS in
theorem p_return {p x st f} (hx : x.isNil = false → OkExpr x) (ht : tupleTight x = true) (hc : Clean st) (hd : st.depth = 0) :
    Adds st (exprBody ft pr f (.returnS {} p x) 0 st) (Y false .smallStmt (SE (.returnS {} p x))) := by
  have hkw : (∃ x s, b!"return" = x :: s ∧ isIdent x = true ∧ s.all isIdent = true) ∧ identKind b!"return" = K.return_ ∧ depthChange K.return_ = 0 :=
    ⟨⟨_, _, rfl, by decide, by decide⟩, by decide, by decide⟩
  have hst : StartOK b!"return" := ⟨114, _, rfl, by unfold Start; decide⟩
  show Adds st (if x.isNil then emit b!"return" st else pr x 0 (emit b!" " (emit b!"return" st))) _
  cases hn : x.isNil with
  | true =>
    rw [isNil_eq hn]
    exact Adds.emit0 hc ⟨hst, ⟨b!"retur", 110, rfl, by decide⟩, _, t_kw0 hkw, g_return0⟩
  | false =>
    simp only [Bool.false_eq_true, if_false]
    have h1 := ((Adds.emit0 (t := b!"return") (R := (· = b!"return")) hc rfl).emit (t := b!" ") (R := (· = b!"return ")) (by rintro _ rfl; rfl)).trans
      (fun hc' => H.expr x 0 false _ (hx hn) (by omega) hc' (fun _ => .inl ⟨hd, ht⟩)) (R := fun s => ∃ s1, s = b!"return" ++ 32 :: s1 ∧ Y false .expr (SE x) s1)
      (by rintro _ s2 rfl q; exact ⟨s2, rfl, q⟩)
    refine h1.mono ?_
    rintro _ ⟨s1, rfl, q⟩
    obtain ⟨w1, as, w2, w3⟩ := YP_kw hkw q
    exact ⟨hst.app, w1, _, w2, g_return1 w3⟩

omit hS in
theorem p_assignStmt {p x y op lb st f} (hop : op ∈ assignOps) (hx : OkExpr x) (hy : OkExpr y) (ht : tupleTight (.assign {} x p op lb y) = true) (hc : Clean st) (hd : st.depth = 0) :
    Adds st (exprBody ft pr f (.assign {} x p op lb y) 0 st) (Y false .smallStmt (SE (.assign {} x p op lb y))) := by
  refine (p_assign (P1 := fun as => Gen as (.n .expr) (SE x)) (P2 := fun as => Gen as (.n .expr) (SE y)) H hop hc (fun _ => .inl ⟨hd, ht⟩)
    (fun st1 hc1 hd1 => H.expr x 1 false st1 hx (by omega) hc1 hd1) (fun st1 hc1 hd1 => H.expr y 2 false st1 hy (by omega) hc1 hd1)).mono (fun _ q => q.mono ?_)
  rintro _ ⟨as1, as2, rfl, q1, q2⟩
  exact g_assignStmt hop q1 q2

omit H hS in
theorem opPrec_aug {op} (h : op ∈ augOps) : opPrec op = 0 := by
  simp only [augOps, List.mem_cons, List.not_mem_nil, or_false] at h
  rcases h with rfl | rfl | rfl | rfl <;> decide

omit hS in
theorem p_augStmt {p x y op lb st f} (hop : op ∈ augOps) (hx : OkExpr x) (hy : OkExpr y) (ht : tupleTight (.binary {} x p op lb y) = true) (hc : Clean st) (hd : st.depth = 0) :
    Adds st (exprBody ft pr f (.binary {} x p op lb y) 0 st) (Y false .smallStmt (SE (.binary {} x p op lb y))) := by
  unfold tupleTight at ht
  simp only [Bool.and_eq_true] at ht
  show Adds st (withParen (opPrec op) 0 _ st) _
  rw [withParen_no (p := opPrec op) (Nat.zero_le _), opPrec_aug hop]
  refine (infix_spec (P1 := fun as => Gen as (.n .expr) (SE x)) (P2 := fun as => Gen as (.n .expr) (SE y)) (b := false) (mg := indent) (px := 0) (py := 1) hc H.keep (by simp [allOps, hop])
    (fun st1 hc1 he => H.expr x 0 false st1 hx (by omega) hc1 (fun _ => .inl ⟨he.trans hd, ht.1⟩))
    (fun st1 hc1 he => H.expr y 1 false st1 hy (by omega) hc1 (fun _ => .inl ⟨he.trans hd, ht.2⟩)) (fun _ _ => hd)).mono ?_
  rintro s ⟨q1, q2, as1, as2, q3, q4, q5⟩
  exact ⟨q1, q2, _, q3, g_augStmt hop q4 q5⟩

theorem p_for {p v x body st f} (hv : OkVars v) (hx : OkExpr x) (hl : body ≠ []) (hok : ∀ s ∈ body, OkStmt s) (ht : tupleTight (.forS {} p v x body) = true) (hc : Clean st)
    (hd : st.depth = 0) : AddsN st (exprBody ft pr f (.forS {} p v x body) 0 st) (StmtT st.margin [.forS {} p v x body]) := by
  unfold tupleTight at ht
  simp only [Bool.and_eq_true] at ht
  show AddsN st (nestedStatements ft pr body (emit b!":" (pr x 0 (emit b!" in " (pr v 0 (emit b!"for " st)))))) _
  have k1 : Keep st (pr v 0 (emit b!"for " st)) := H.keep v 0 (emit b!"for " st)
  have k2 : Keep st (emit b!":" (pr x 0 (emit b!" in " (pr v 0 (emit b!"for " st))))) := k1.trans (H.keep x 0 (emit b!" in " (pr v 0 (emit b!"for " st))))
  have h1 := (Adds.emit0 (R := (· = b!"for ")) hc rfl).trans (fun hc' => H.vars v false _ hv hc' (fun _ => .inl ⟨hd, ht.1.1⟩)) (R := fun s => ∃ s1, s = b!"for " ++ s1 ∧ Y false .loopVars (SE v) s1)
    (by rintro _ s2 rfl q; exact ⟨s2, rfl, q⟩)
  have h2 := h1.emit (t := b!" in ") (R := fun s => ∃ s1, s = b!"for " ++ s1 ++ b!" in " ∧ Y false .loopVars (SE v) s1) (by rintro _ ⟨s1, rfl, q⟩; exact ⟨s1, rfl, q⟩)
  have h3 := h2.trans (fun hc' => H.expr x 0 false _ hx (by omega) hc' (fun _ => .inl ⟨k1.1.trans hd, ht.1.2⟩))
    (R := fun s => ∃ s1 s2, s = b!"for " ++ s1 ++ b!" in " ++ s2 ∧ Y false .loopVars (SE v) s1 ∧ Y false .expr (SE x) s2) (by rintro _ s2 ⟨s1, rfl, q⟩ q2; exact ⟨s1, s2, rfl, q, q2⟩)
  have h4 := h3.emit (t := b!":") (R := YP false (fun as => ∃ as1 as2, as = W K.for_ b!"for" :: (as1 ++ (W K.in_ b!"in" :: (as2 ++ [W 58 b!":"]))) ∧
      Gen as1 (.n .loopVars) (SE v) ∧ Gen as2 (.n .expr) (SE x))) (by
    rintro _ ⟨s1, s2, rfl, ⟨_, _, as1, q3, q4⟩, _, _, as2, r3, r4⟩
    have e : b!"for " ++ s1 ++ b!" in " ++ s2 ++ b!":" = b!"for" ++ 32 :: (s1 ++ 32 :: (b!"in" ++ 32 :: (s2 ++ [58]))) := by simp
    rw [e]
    refine ⟨StartOK.app ⟨102, _, rfl, by unfold Start; decide⟩, EndOK.app (EndOK.cons (EndOK.app (EndOK.cons (EndOK.app (EndOK.cons (EndOK.app (EndOK.single (by decide)))))))), _, fun c hc => ?_, as1, as2, rfl, q4, r4⟩
    exact lx_kw (k := K.for_) ⟨⟨_, _, rfl, by decide, by decide⟩, by decide, by decide⟩ follow32 (Lx.sp (Lx.appT q3 follow32 (Lx.sp
      (lx_kw (k := K.in_) ⟨⟨_, _, rfl, by decide, by decide⟩, by decide, by decide⟩ follow32 (Lx.sp (Lx.appT r3 follow58 (lx_colon (Lx.nil false c)))))))))
  obtain ⟨h5, _⟩ := nested_ln (ft := ft) H hS h4 (k2.1.trans hd) hl hok (tupleTightL_mem ht.2)
  rw [k2.2] at h5
  refine AddsN.block (h5.mono (fun t q => q.mono ?_))
  rintro _ _ ⟨_, a2, rfl, ⟨as1, as2, rfl, g1, g2⟩, g3⟩
  exact (g_for g1 g2 g3).cast (by simp)

omit H hS in
theorem tok_arrow (c : UInt8) : TextTok b!"->" c (W K.arrow b!"->") := tok_op ⟨45, [62], rfl, by decide, fun _ => rfl⟩

theorem p_def {p name ps body cp fc fm ty st f} (hname : Name name) (hps : ∀ a ∈ ps, OkParam true a) (hty : ty.isNil = false → Ok ty) (hl : body ≠ []) (hok : ∀ s ∈ body, OkStmt s)
    (ht : tupleTight (.defS {} p name ps body cp fc fm ty) = true) (hc : Clean st) (hd : st.depth = 0) :
    AddsN st (exprBody ft pr f (.defS {} p name ps body cp fc fm ty) 0 st) (StmtT st.margin [.defS {} p name ps body cp fc fm ty]) := by
  unfold tupleTight at ht
  simp only [Bool.and_eq_true] at ht
  show AddsN st (nestedStatements ft pr body (emit b!":" (if ty.isNil then seq ft pr b!"(" b!")" p ps none .def_ fc fm (emit name (emit b!"def " st)) else
    pr ty 0 (emit b!" -> " (seq ft pr b!"(" b!")" p ps none .def_ fc fm (emit name (emit b!"def " st))))))) _
  have k1 : Keep st (seq ft pr b!"(" b!")" p ps none .def_ fc fm (emit name (emit b!"def " st))) := keep_seq H.keep _ _ _ _ _ _ _ _ (emit name (emit b!"def " st))
  have h0 := (Adds.emit0 (t := b!"def ") (R := (· = b!"def ")) hc rfl).emit (t := name) (R := (· = b!"def " ++ name)) (by rintro _ rfl; rfl)
  have h1 := h0.trans (fun hc' => seq_spec (ft := ft) (start := p) (e := none) (fc := fc) (fm := fm) (elem := fun x as => Gen as (.n .parameterType) (SE x)) (m := .def_) (o := 40) (c := 41) (by decide) (.inl rfl)
    (fun x hx => (hps x hx).isNil) (by rintro _ ⟨⟩) (fun x hx st hc => H.param true x true st (hps x hx) hc (dep_true _ _)) H.keep _ hc')
    (R := YP false (fun as => Gen as (.n .defHeader) (SDef name ps .nil))) (by
      rintro _ _ rfl ⟨s1, as, rfl, hs⟩
      have e : b!"def " ++ name ++ 40 :: (s1 ++ [41]) = b!"def" ++ 32 :: (name ++ 40 :: (s1 ++ [41])) := by simp
      rw [e]
      obtain ⟨e1, e2⟩ := group_ends (s := s1) (o := 40) (cl := 41) (.inl rfl) (.inl rfl)
      refine ⟨StartOK.app ⟨100, _, rfl, by unfold Start; decide⟩, ((e2.app).cons).app, _, fun c hc => ?_, g_header hs.all⟩
      exact lx_kw (k := K.def_) ⟨⟨_, _, rfl, by decide, by decide⟩, by decide, by decide⟩ follow32 (Lx.sp (Lx.appT (t_name hname) follow40 (lx_group (.inl rfl) (.inl rfl) hs.lex c hc))))
  generalize seq ft pr b!"(" b!")" p ps none .def_ fc fm (emit name (emit b!"def " st)) = st1 at h1 k1 ⊢
  have k2 : Keep st (if ty.isNil then st1 else pr ty 0 (emit b!" -> " st1)) := by
    cases ty.isNil
    · exact k1.trans (H.keep ty 0 (emit b!" -> " st1))
    · exact k1
  have h2 : Adds st (if ty.isNil then st1 else pr ty 0 (emit b!" -> " st1)) (YP false (fun as => Gen as (.n .defHeaderTypeOpt) (SDef name ps ty))) := by
    cases hn : ty.isNil with
    | true => rw [isNil_eq hn]; exact h1.mono (fun _ q => q.mono (fun _ g => g_headerType0 g))
    | false =>
      simp only [Bool.false_eq_true, if_false]
      have h3 := h1.emit (t := b!" -> ") (R := fun s => ∃ s0, s = s0 ++ b!" -> " ∧ YP false (fun as => Gen as (.n .defHeader) (SDef name ps .nil)) s0) (fun s q => ⟨s, rfl, q⟩)
      refine h3.trans (fun hc' => H.any (b := false) (hty hn) (Nat.zero_le 2) hc' (fun _ => .inl ⟨k1.1.trans hd, ht.1⟩)) ?_
      rintro _ s2 ⟨s0, rfl, q1, q2, as1, q3, q4⟩ ⟨_, r2, as2, r3, r4⟩
      have e : s0 ++ b!" -> " ++ s2 = s0 ++ 32 :: (b!"->" ++ 32 :: s2) := by simp
      rw [e]
      exact ⟨q1.app, ((r2.cons).app.cons).app, _, fun c hc => Lx.appT q3 follow32 (Lx.sp (Lx.pre (tok_arrow _) (by decide) (Lx.sp (r3 c hc)))), g_headerType1 q4 r4⟩
  generalize (if ty.isNil then st1 else pr ty 0 (emit b!" -> " st1)) = st2 at h2 k2 ⊢
  have h4 := h2.emit (t := b!":") (R := YP false (fun as => ∃ as1, as = as1 ++ [W 58 b!":"] ∧ Gen as1 (.n .defHeaderTypeOpt) (SDef name ps ty))) (by
    rintro s ⟨q1, q2, as1, q3, q4⟩
    exact ⟨q1.app, EndOK.app (EndOK.single (by decide)), _, fun c hc => Lx.appT q3 follow58 (lx_colon (Lx.nil false c)), as1, rfl, q4⟩)
  obtain ⟨h5, _⟩ := nested_ln (ft := ft) H hS h4 (k2.1.trans hd) hl hok (tupleTightL_mem ht.2)
  rw [show (emit b!":" st2).margin = st.margin from k2.2] at h5
  refine AddsN.block (h5.mono (fun t q => q.mono ?_))
  rintro _ _ ⟨_, a2, rfl, ⟨as1, rfl, g1⟩, g3⟩
  exact (g_def g1 g3).cast (by simp)

theorem p_if {p x body ep els st f} (he : ep.comments = {}) (hx : OkExpr x) (hl : body ≠ []) (hok : ∀ s ∈ body, OkStmt s) (hok2 : ∀ s ∈ els, OkStmt s)
    (ht : tupleTight (.ifS {} p x body ep els) = true) (hc : Clean st) (hd : st.depth = 0) :
    AddsN st (exprBody ft pr f (.ifS {} p x body ep els) 0 st) (StmtT st.margin [.ifS {} p x body ep els]) := by
  unfold tupleTight at ht
  simp only [Bool.and_eq_true] at ht
  show AddsN st (ifChain ft pr f true false x body ep els st) _
  cases f with
  | zero => exact ⟨hc.1, fun hb => by cases hb⟩
  | succ f =>
    rw [ifChain_first hc hl]
    obtain ⟨h1, h2⟩ := if_first (ft := ft) H hS hc hd hx ht.1.1 hl hok (tupleTightL_mem ht.1.2)
    exact AddsN.block (chain_spec H hS f (l := []) h1 h2 (.nil _) he hok2 (tupleTightL_mem ht.2))

theorem body_stmt {s : Expr} {st : St} {f : Nat} (h : OkStmt s) (ht : tupleTight s = true) (hc : Clean st) (hd : st.depth = 0) :
    AddsN st (exprBody ft pr f s 0 st) (StmtT st.margin [s]) := by
  cases h with
  | expr _ hx => exact ((body_expr H hx (Nat.zero_le 2) hc (fun _ => .inl ⟨hd, ht⟩)).toN).mono (fun _ q => simple_T (q.mono (fun _ g => g_smallExpr g)))
  | assign x p op lb y hop hx hy => exact ((p_assignStmt H hop hx hy ht hc hd).toN).mono (fun _ q => simple_T q)
  | aug x p op lb y hop hx hy => exact ((p_augStmt H hop hx hy ht hc hd).toN).mono (fun _ q => simple_T q)
  | return_ p x hx => exact ((p_return H hx ht hc hd).toN).mono (fun _ q => simple_T q)
  | branch t p hb => exact AddsN.mono (P := (· = t)) (Adds.toN (Adds.emit0 (t := t) hc rfl)) (by rintro _ rfl; exact simple_T (p_branch hb))
  | def_ p name ps body cp fc fm ty h1 h2 h3 h4 h5 => exact p_def H hS h1 h2 h3 h4 h5 ht hc hd
  | for_ p v x body h1 h2 h3 h4 => exact p_for H hS h1 h2 h3 h4 ht hc hd
  | if_ p x body ep els h1 h2 h3 h4 h5 => exact p_if H hS h1 h2 h3 h4 h5 ht hc hd

end

theorem prS (ft : FileType) : ∀ f, PrS (expr ft f) := by
  intro f
  induction f with
  | zero => intro s st _ _ hc _; exact ⟨hc.1, fun hb => by cases hb⟩
  | succ f ih =>
    intro s st h ht hc hd
    rw [expr_clean hc h.comments]
    have := body_stmt (ft := ft) (f := f) (prOK ft f) ih h ht hc hd
    exact ⟨by show _ ++ [] = []; rw [this.1]; rfl, this.2⟩

end Verif.Round
