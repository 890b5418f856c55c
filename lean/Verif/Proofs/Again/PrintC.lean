import Verif.Proofs.PrintC
import Verif.Proofs.Again.PrintS
/-
Printed `if` statements and all other statements are read back as they were printed.
-/
namespace Verif.Again
open Verif Verif.Syntax Verif.Lexer Verif.Print Verif.Grammar Verif.Parser Verif.Round

/-- the text, which starts on line `ln`, reads, line by line, as tokens with property `P` -/
def Ln (m ln : Nat) (P : List LTok → Prop) (t : Bytes) : Prop := StartOK t ∧ EndOK t ∧ ∀ n, ∃ as, LS m ln t (n + 1) as ∧ NC as ∧ P as

theorem Ln.mono {m ln P Q t} (h : Ln m ln P t) (h' : ∀ as, NC as → P as → Q as) : Ln m ln Q t :=
  ⟨h.1, h.2.1, fun n => by obtain ⟨as, a, b, c⟩ := h.2.2 n; exact ⟨as, a, b, h' as b c⟩⟩

theorem Ln.seq {m ln P Q t1 t2} (j : Nat) (h1 : Ln m ln P t1) (h2 : Ln m (ln + (nl t1 + (j + 1))) Q t2) :
    Ln m ln (fun as => ∃ a1 a2, as = a1 ++ a2 ∧ P a1 ∧ Q a2) ((t1 ++ (List.replicate (j + 1) 10 ++ spaces m)) ++ t2) := by
  obtain ⟨a1, a2, a3⟩ := h1
  obtain ⟨b1, b2, b3⟩ := h2
  refine ⟨(a1.app).app, b2.app, fun n => ?_⟩
  obtain ⟨as1, l1, n1, p1⟩ := a3 j
  obtain ⟨as2, l2, n2, p2⟩ := b3 n
  refine ⟨as1 ++ as2, ?_, n1.app n2, as1, as2, rfl, p1, p2⟩
  have := ls_seq l1 b1 l2
  simpa using this

/-- a statement of either kind -/
def StB (m ln : Nat) (R : Expr → Prop) (t : Bytes) : Prop :=
  Y false ln .smallStmt (OE R) t ∨ Ln m ln (fun as => Gen as (.n (.blockStmt false)) (OE R)) t

theorem StB.stmt {ft pr m ln it R t} (h : StB m ln R t) (hR : ∀ y, R y → RS ft pr it y) : StmtT ft pr m ln [it] t := by
  have key : ∀ v, OE R v → OE (RS ft pr it) v := fun v q => hR _ q
  rcases h with ⟨h1, h2, as, h3, h4⟩ | ⟨h1, h2, h3⟩
  · exact ⟨h1, h2, fun n => ⟨_, ls_simple h1 h3, ext_simple (h4.mono key) h3.nc n⟩⟩
  · exact ⟨h1, h2, fun n => by obtain ⟨as, a, b, c⟩ := h3 n; exact ⟨as, a, ext_block (c.mono key) b⟩⟩

theorem nl_spec {st0 st : St} {m P} (ne : Bool) (h : AddsN st0 st (Ln m (line st0) P)) (hm : Mid st m) :
    (∃ j, Adds st0 (Round.nl ne st) (fun t => ∃ t0, t = t0 ++ (List.replicate (j + 1) 10 ++ spaces m) ∧ Ln m (line st0) P t0 ∧ line (Round.nl ne st) = line st0 + (nl t0 + (j + 1)))) ∧
      (Round.nl ne st).margin = m ∧ (Round.nl ne st).depth = 0 := by
  have e : newlineIfNeeded st = newline st := by unfold newlineIfNeeded; rw [hm.1]; rfl
  have n1 := AddsN.newline h (fun t q => q.2.1)
  have k1 := keep_newline st
  rw [hm.2.1] at n1
  have fin : ∀ j st2, Adds st0 st2 (fun t => ∃ t0, t = t0 ++ (List.replicate (j + 1) 10 ++ spaces m) ∧ Ln m (line st0) P t0) →
      Adds st0 st2 (fun t => ∃ t0, t = t0 ++ (List.replicate (j + 1) 10 ++ spaces m) ∧ Ln m (line st0) P t0 ∧ line st2 = line st0 + (nl t0 + (j + 1))) := by
    intro j st2 ha
    refine (lined ha).mono ?_
    rintro _ ⟨⟨t0, rfl, q⟩, hl⟩
    refine ⟨t0, rfl, q, ?_⟩
    rw [hl, nl_append, nl_append, nl_replicate, nl_spaces, Nat.add_zero]
  unfold Round.nl
  rw [e]
  cases ne
  · exact ⟨⟨0, fin 0 _ n1⟩, k1.2.trans hm.2.1, k1.1.trans hm.2.2⟩
  · have n2 := n1.newline2
    rw [k1.2, hm.2.1] at n2
    have k2 := k1.trans (keep_newline (newline st))
    exact ⟨⟨1, fin 1 _ n2⟩, k2.2.trans hm.2.1, k2.1.trans hm.2.2⟩

/-- a block after its header -/
def BlockG (ft : FileType) (pr : Pr) (P : List LTok → Prop) (l : List It) (as : List LTok) : Prop := ∃ ah a2, as = ah ++ (NL :: IND :: (a2 ++ [UNIND])) ∧ P ah ∧ StmtsG ft pr l a2

section
variable {ft : FileType} {pr : Pr} (H : PrOK ft pr) (hS : PrS ft pr)
include H hS

theorem nested_ln {l : List Expr} {st0 st : St} {P : List LTok → Prop} (h : Adds st0 st (YP false (line st0) P)) (hd : st.depth = 0) (hl : l ≠ []) (hok : ∀ s ∈ l, OkStmt s)
    (hfo : ∀ s ∈ l, Fo s) (htt : ∀ s ∈ l, tupleTight s = true) :
    AddsN st0 (nestedStatements ft pr l st) (Ln st.margin (line st0) (BlockG ft pr P (itemsS ft pr l (nestOpen st)))) ∧ Mid (nestedStatements ft pr l st) st.margin := by
  obtain ⟨h1, h2⟩ := nested_spec (ft := ft) hS H.keep h hd hl hok hfo htt
  refine ⟨h1.mono ?_, h2, ?_⟩
  · rintro t ⟨q1, q2, q3⟩
    refine ⟨q1, q2, fun n => ?_⟩
    obtain ⟨ah, as, w1, w2, w3, w4⟩ := q3 n
    exact ⟨_, w1, w2.app (nc_suite w4.1), ah, as, rfl, w3, w4.stmts⟩
  · have k := keep_nested (ft := ft) H.keep l st
    exact ⟨k.2, k.1.trans hd⟩

omit hS in
/-- `if x:` and `elif x:` -/
theorem hdr_spec {kw : Bytes} {k : Kind} (hk : (∃ x s, kw = x :: s ∧ isIdent x = true ∧ s.all isIdent = true) ∧ identKind kw = k ∧ depthChange k = 0) (hst : StartOK kw)
    {st st1 : St} {x : Expr} (h : Adds st st1 (· = kw ++ [32])) (hx : OkExpr x) (hfo : Fo x) (ht : tupleTight x = true) (hd : st1.depth = 0) (hl1 : line st1 = line st) :
    Adds st (emit b!":" (pr x 0 st1)) (YP false (line st) (fun as => ∃ as1 l2, as = W (line st) k kw :: (as1 ++ [W l2 58 b!":"]) ∧
      Gen as1 (.n .expr) (OE (fun y => RQ ft x y 0 st1 (pr x 0 st1))))) := by
  have h1 := h.trans (fun hc => H.expr x 0 false st1 hx hfo (by omega) hc (fun _ => .inl ⟨hd, ht⟩))
    (R := fun s => ∃ s1, s = kw ++ 32 :: s1 ∧ Y false (line st) .expr (OE (fun y => RQ ft x y 0 st1 (pr x 0 st1))) s1)
    (by rintro _ s2 rfl q; rw [hl1] at q; exact ⟨s2, by simp, q⟩)
  refine h1.emit ?_
  rintro _ ⟨s1, rfl, q1, q2, as1, q3, q4⟩
  have e : kw ++ 32 :: s1 ++ b!":" = kw ++ 32 :: (s1 ++ [58]) := by simp
  rw [e]
  refine ⟨hst.app, ((EndOK.app (EndOK.single (by decide))).cons).app, _, fun c hc => ?_, as1, line st + nl s1, rfl, q4⟩
  exact lx_kw hk follow32 (Lx.sp (Lx.appT q3 follow58 (lx_colon (Lx.nil false _ c))))

/-- the first branch -/
theorem if_first {x : Expr} {tr : List Expr} {st : St} (hc : Clean st) (hd : st.depth = 0) (hx : OkExpr x) (hfx : Fo x) (ht : tupleTight x = true) (hl : tr ≠ []) (hok : ∀ s ∈ tr, OkStmt s)
    (hfo : ∀ s ∈ tr, Fo s) (htt : ∀ s ∈ tr, tupleTight s = true) :
    AddsN st (nestedStatements ft pr tr (emit b!":" (pr x 0 (emit b!"if " st))))
        (Ln st.margin (line st) (fun as => Gen as (.n (.ifChain false)) (CV (fun b bs => bs = [] ∧ b.pos.line = line st ∧ BrR ft pr x tr st b)))) ∧
      Mid (nestedStatements ft pr tr (emit b!":" (pr x 0 (emit b!"if " st)))) st.margin := by
  have k : Keep st (emit b!":" (pr x 0 (emit b!"if " st))) := (H.keep x 0 (emit b!"if " st))
  have h1 := hdr_spec H (kw := b!"if") (k := K.if_) ⟨⟨_, _, rfl, by decide, by decide⟩, by decide, by decide⟩ ⟨105, _, rfl, by unfold Start; decide⟩
    (Adds.emit0 (t := b!"if ") hc rfl) hx hfx ht hd (line_emit0 (by decide) _)
  obtain ⟨h2, h3⟩ := nested_ln (ft := ft) H hS h1 (k.1.trans hd) hl hok hfo htt
  rw [k.2] at h2 h3
  refine ⟨h2.mono (fun t q => q.mono ?_), h3⟩
  rintro _ _ ⟨_, a2, rfl, ⟨as1, l2, rfl, g1⟩, g2⟩
  exact (g_if (ln := line st) (l2 := l2) g1 g2 (fun p x' t' hp hx' ht' => ⟨rfl, hp, hx', hl, fun s hs => OkStmt.plain (hok s hs), ht'⟩)).cast (by simp)

/-- the other branches -/
theorem if_next {x : Expr} {tr : List Expr} {st0 st : St} {m : Nat} {P P' : Br → List Br → Prop} (ne : Bool)
    (h : AddsN st0 st (Ln m (line st0) (fun as => Gen as (.n (.ifChain false)) (CV P)))) (hm : Mid st m) (hx : OkExpr x) (hfx : Fo x) (ht : tupleTight x = true) (hl : tr ≠ [])
    (hok : ∀ s ∈ tr, OkStmt s) (hfo : ∀ s ∈ tr, Fo s) (htt : ∀ s ∈ tr, tupleTight s = true)
    (hP : ∀ b bs b2, P b bs → b2.pos.line = line (Round.nl ne st) → BrR ft pr x tr (emit b!"el" (Round.nl ne st)) b2 → P' b (bs ++ [b2])) :
    AddsN st0 (nestedStatements ft pr tr (emit b!":" (pr x 0 (emit b!"if " (emit b!"el" (Round.nl ne st)))))) (Ln m (line st0) (fun as => Gen as (.n (.ifChain false)) (CV P'))) ∧
      Mid (nestedStatements ft pr tr (emit b!":" (pr x 0 (emit b!"if " (emit b!"el" (Round.nl ne st)))))) m := by
  obtain ⟨⟨j, n1⟩, n2, n3⟩ := nl_spec ne h hm
  have k : Keep (Round.nl ne st) (emit b!":" (pr x 0 (emit b!"if " (emit b!"el" (Round.nl ne st))))) := (H.keep x 0 (emit b!"if " (emit b!"el" (Round.nl ne st))))
  have hle : line (emit b!"if " (emit b!"el" (Round.nl ne st))) = line (Round.nl ne st) := (line_emit0 (by decide) _).trans (line_emit0 (by decide) _)
  have h1 := hdr_spec H (kw := b!"elif") (k := K.elif) (st := Round.nl ne st) ⟨⟨_, _, rfl, by decide, by decide⟩, by decide, by decide⟩ ⟨101, _, rfl, by unfold Start; decide⟩
    ((Adds.emit0 (t := b!"el") (R := (· = b!"el")) n1.1 rfl).emit (t := b!"if ") (by rintro _ rfl; rfl)) hx hfx ht n3 hle
  obtain ⟨h2, h3⟩ := nested_ln (ft := ft) H hS h1 (k.1.trans n3) hl hok hfo htt
  rw [k.2, n2] at h2 h3
  refine ⟨n1.transN (fun _ => h2) ?_, h3⟩
  rintro _ t2 ⟨t0, rfl, q0, hln⟩ q
  generalize hln2 : line (Round.nl ne st) = ln2 at q hln hP
  rw [hln] at q
  refine (q0.seq j q).mono ?_
  rintro _ _ ⟨a0, _, rfl, g0, _, a2, rfl, ⟨as1, l2, rfl, g1⟩, g2⟩
  exact (g_elif (ln := line st0 + (nl t0 + (j + 1))) (l2 := l2) g0 g1 g2 (fun b bs p x' t' hb hp hx' ht' =>
    hP b bs _ hb (hp.trans hln.symm) ⟨hx', hl, fun s hs => OkStmt.plain (hok s hs), ht'⟩)).cast (by simp)

/-- the block after `else` -/
theorem if_else {els : List Expr} {st0 st : St} {m : Nat} {P : Br → List Br → Prop} {Q : Expr → Prop} (ne : Bool)
    (h : AddsN st0 st (Ln m (line st0) (fun as => Gen as (.n (.ifChain false)) (CV P)))) (hm : Mid st m) (hl : els ≠ [])
    (hok : ∀ s ∈ els, OkStmt s) (hfo : ∀ s ∈ els, Fo s) (htt : ∀ s ∈ els, tupleTight s = true)
    (hs : ∀ b bs (p : Pos) els', P b bs → p.line = line (Round.nl ne st) → All2 (RS ft pr) (itemsS ft pr els (nestOpen (emit b!"else:" (Round.nl ne st)))) els' → Q (chainE b bs ⟨{}, p⟩ els')) :
    AddsN st0 (nestedStatements ft pr els (emit b!"else:" (Round.nl ne st))) (Ln m (line st0) (fun as => Gen as (.n (.blockStmt false)) (OE Q))) ∧
      Mid (nestedStatements ft pr els (emit b!"else:" (Round.nl ne st))) m := by
  obtain ⟨⟨j, n1⟩, n2, n3⟩ := nl_spec ne h hm
  have h1 : Adds (Round.nl ne st) (emit b!"else:" (Round.nl ne st)) (YP false (line (Round.nl ne st)) (· = [W (line (Round.nl ne st)) K.else_ b!"else", W (line (Round.nl ne st)) 58 b!":"])) := by
    refine Adds.emit0 n1.1 ⟨⟨101, _, rfl, by unfold Start; decide⟩, ⟨b!"else", 58, rfl, by decide⟩, _, fun c hc => ?_, rfl⟩
    exact lx_kw (t := b!"else") (s := b!":") (k := K.else_) ⟨⟨_, _, rfl, by decide, by decide⟩, by decide, by decide⟩ follow58 (lx_colon (Lx.nil false _ c))
  obtain ⟨h2, h3⟩ := nested_ln (ft := ft) H hS h1 n3 hl hok hfo htt
  have e : (emit b!"else:" (Round.nl ne st)).margin = m := n2
  rw [e] at h2 h3
  refine ⟨n1.transN (fun _ => h2) ?_, h3⟩
  rintro _ t2 ⟨t0, rfl, q0, hln⟩ q
  have q : Ln m (line st0 + (nl t0 + (j + 1))) _ t2 := hln ▸ q
  refine (q0.seq j q).mono ?_
  rintro _ _ ⟨a0, _, rfl, g0, _, a2, rfl, rfl, g2⟩
  exact g_else g0 g2 (fun b bs p els' hb hp hI => hs b bs p els' hb (hp.trans hln.symm) hI)

theorem chain_spec : ∀ (f : Nat) {ep} {tr : List Expr} {fa : List Expr} {st0 st R : St} {m : Nat} {Q : Expr → Prop},
    R = chainRest ft pr f tr ep fa st →
    AddsN st0 st (Ln m (line st0) (fun as => Gen as (.n (.ifChain false)) (CV (fun b bs => ∀ more ep' els', ChR ft pr tr ep fa st R more ep' els' → Q (chainE b (bs ++ more) ep' els'))))) →
    Mid st m → ep.comments = {} → (∀ s ∈ fa, OkStmt s) → (∀ s ∈ fa, Fo s) → (∀ s ∈ fa, tupleTight s = true) →
    AddsN st0 R (Ln m (line st0) (fun as => Gen as (.n (.blockStmt false)) (OE Q))) := by
  have els : ∀ (f : Nat) {ep} {tr : List Expr} {fa : List Expr} {st0 st R : St} {m : Nat} {Q : Expr → Prop},
      R = chainRest ft pr f tr ep fa st →
      AddsN st0 st (Ln m (line st0) (fun as => Gen as (.n (.ifChain false)) (CV (fun b bs => ∀ more ep' els', ChR ft pr tr ep fa st R more ep' els' → Q (chainE b (bs ++ more) ep' els'))))) →
      Mid st m → ep.comments = {} → (∀ s ∈ fa, OkStmt s) → (∀ s ∈ fa, Fo s) → (∀ s ∈ fa, tupleTight s = true) → (∀ c p x b e l, fa ≠ [.ifS c p x b e l]) →
      AddsN st0 R (Ln m (line st0) (fun as => Gen as (.n (.blockStmt false)) (OE Q))) := by
    intro f ep tr fa st0 st R m Q hR h hm he hok hfo htt hfa
    rw [chainRest_else he hfa] at hR
    cases fa with
    | nil =>
      have hR : R = st := hR
      subst hR
      exact h.mono (fun t q => q.mono (fun as _ g => g_noElse g (fun b bs hv => by
        have := hv [] {} [] (.none _ _ _ _)
        rwa [List.append_nil] at this)))
    | cons x fa =>
      have hR : R = nestedStatements ft pr (x :: fa) (emit b!"else:" (Round.nl (decide (ep.pos.line > (endPosLast tr).line + 1)) st)) := hR
      rw [hR] at h ⊢
      refine (if_else H hS _ h hm (by simp) hok hfo htt (fun b bs p els' hv hp hI => ?_)).1
      have := hv [] ⟨{}, p⟩ els' (.els _ _ _ _ _ _ _ (by simp) hfa rfl hp rfl (fun s hs => OkStmt.plain (hok s hs)) hI)
      rwa [List.append_nil] at this
  intro f
  induction f with
  | zero =>
    intro ep tr fa st0 st R m Q hR h hm he hok hfo htt
    by_cases hfa : ∃ c p x b e l, fa = [.ifS c p x b e l]
    · obtain ⟨c2, p2, co2, tr2, ep2, fa2, rfl⟩ := hfa
      obtain ⟨rfl, h1, h2, h3, h4, h5⟩ := okIf (hok _ List.mem_cons_self)
      have e : chainRest ft pr 0 tr ep [.ifS {} p2 co2 tr2 ep2 fa2] st = { st with bad := true } := by
        unfold chainRest
        dsimp only
        rw [he]
        rfl
      rw [hR, e]
      exact ⟨h.1, fun hb => by cases hb⟩
    · exact els 0 hR h hm he hok hfo htt (fun c p x b e l h => hfa ⟨_, _, _, _, _, _, h⟩)
  | succ f ih =>
    intro ep tr fa st0 st R m Q hR h hm he hok hfo htt
    by_cases hfa : ∃ c p x b e l, fa = [.ifS c p x b e l]
    · obtain ⟨c2, p2, co2, tr2, ep2, fa2, rfl⟩ := hfa
      obtain ⟨rfl, h1, h2, h3, h4, h5⟩ := okIf (hok _ List.mem_cons_self)
      have ht := htt _ List.mem_cons_self
      unfold tupleTight at ht
      simp only [Bool.and_eq_true] at ht
      obtain ⟨f1, f2, f3⟩ := fo_if (hfo _ List.mem_cons_self)
      have e : chainRest ft pr (f + 1) tr ep [.ifS {} p2 co2 tr2 ep2 fa2] st = ifChain ft pr (f + 1) false (decide (ep.pos.line > (endPosLast tr).line + 1)) co2 tr2 ep2 fa2 st := by
        unfold chainRest
        dsimp only
        rw [he]
        rfl
      rw [e, ifChain_next h3] at hR
      obtain ⟨a1, a2⟩ := if_next (ft := ft) (P' := fun b bs => ∀ more ep' els', ChR ft pr tr2 ep2 fa2
          (nestedStatements ft pr tr2 (emit b!":" (pr co2 0 (emit b!"if " (emit b!"el" (Round.nl (decide (ep.pos.line > (endPosLast tr).line + 1)) st)))))) R more ep' els' →
          Q (chainE b (bs ++ more) ep' els')) H hS (decide (ep.pos.line > (endPosLast tr).line + 1)) h hm h2 f1 ht.1.1 h3 h4 f2 (tupleTightL_mem ht.1.2)
        (fun b bs b2 hv hp hb more ep' els' hch => by
          have := hv (b2 :: more) ep' els' (.next _ _ _ _ _ _ _ _ _ _ _ _ _ _ hp rfl hb hch)
          rwa [List.append_assoc])
      exact ih hR a1 a2 h1 h5 f3 (tupleTightL_mem ht.2)
    · exact els _ hR h hm he hok hfo htt (fun c p x b e l h => hfa ⟨_, _, _, _, _, _, h⟩)

end

end Verif.Again
