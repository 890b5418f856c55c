import Verif.Proofs.Again.PrintC
/-
All printed statements are read back as they were printed.
-/
namespace Verif.Again
open Verif Verif.Syntax Verif.Lexer Verif.Print Verif.Grammar Verif.Parser Verif.Round

section
variable {ft : FileType} {pr : Pr} (H : PrOK ft pr) (hS : PrS ft pr)
include H hS

omit H hS in
theorem t_kw0 {b ln t} {k : Kind} (h : (∃ x s, t = x :: s ∧ isIdent x = true ∧ s.all isIdent = true) ∧ identKind t = k ∧ depthChange k = 0) : T b ln t [W ln k t] := by
  intro c hc
  have := lx_kw (b := b) (ln := ln) (s := []) (c := c) h hc (Lx.nil b ln c)
  simpa using this

omit H hS in
theorem p_branch {t p o} {st : St} (ht : t ∈ [b!"pass", b!"break", b!"continue"]) (hc : Clean st) :
    Y false (line st) .smallStmt (OE (fun y => RQ ft (.branch {} t p) y o st (emit t st))) t := by
  have g := g_branch (ln := line st) ht (R := fun y => RQ ft (.branch {} t p) y o st (emit t st)) (fun p' hp => r_branch hc hp)
  simp only [List.mem_cons, List.not_mem_nil, or_false] at ht
  rcases ht with rfl | rfl | rfl
  · exact ⟨⟨112, _, rfl, by unfold Start; decide⟩, ⟨b!"pas", 115, rfl, by decide⟩, _, t_kw0 ⟨⟨_, _, rfl, by decide, by decide⟩, rfl, by decide⟩, g⟩
  · exact ⟨⟨98, _, rfl, by unfold Start; decide⟩, ⟨b!"brea", 107, rfl, by decide⟩, _, t_kw0 ⟨⟨_, _, rfl, by decide, by decide⟩, rfl, by decide⟩, g⟩
  · exact ⟨⟨99, _, rfl, by unfold Start; decide⟩, ⟨b!"continu", 101, rfl, by decide⟩, _, t_kw0 ⟨⟨_, _, rfl, by decide, by decide⟩, rfl, by decide⟩, g⟩

omit hS in
theorem p_return {p x st f} (hx : x.isNil = false → OkExpr x) (hfo : Fo x) (ht : tupleTight x = true) (hc : Clean st) (hd : st.depth = 0) :
    Adds st (exprBody ft pr f (.returnS {} p x) 0 st) (Y false (line st) .smallStmt (OE (fun y => RQ ft (.returnS {} p x) y 0 st (exprBody ft pr f (.returnS {} p x) 0 st)))) := by
  have hkw : (∃ x s, b!"return" = x :: s ∧ isIdent x = true ∧ s.all isIdent = true) ∧ identKind b!"return" = K.return_ ∧ depthChange K.return_ = 0 :=
    ⟨⟨_, _, rfl, by decide, by decide⟩, by decide, by decide⟩
  have hst : StartOK b!"return" := ⟨114, _, rfl, by unfold Start; decide⟩
  have hb : exprBody ft pr f (.returnS {} p x) 0 st = if x.isNil then emit b!"return" st else pr x 0 (emit b!" " (emit b!"return" st)) := rfl
  rw [hb]
  cases hn : x.isNil with
  | true =>
    rw [isNil_eq hn]
    exact Adds.emit0 hc ⟨hst, ⟨b!"retur", 110, rfl, by decide⟩, _, t_kw0 hkw, g_return0 (fun p' hp => r_return0 hc hp)⟩
  | false =>
    simp only [Bool.false_eq_true, if_false]
    have hle : line (emit b!" " (emit b!"return" st)) = line st := (line_emit0 (by decide) _).trans (line_emit0 (by decide) _)
    have h1 := ((Adds.emit0 (t := b!"return") (R := (· = b!"return")) hc rfl).emit (t := b!" ") (R := (· = b!"return ")) (by rintro _ rfl; rfl)).trans
      (fun hc' => H.expr x 0 false _ (hx hn) hfo (by omega) hc' (fun _ => .inl ⟨hd, ht⟩))
      (R := fun s => ∃ s1, s = b!"return" ++ 32 :: s1 ∧ Y false (line st) .expr (OE (fun y => RQ ft x y 0 (emit b!" " (emit b!"return" st)) (pr x 0 (emit b!" " (emit b!"return" st))))) s1)
      (by rintro _ s2 rfl q; rw [hle] at q; exact ⟨s2, rfl, q⟩)
    refine h1.mono ?_
    rintro _ ⟨s1, rfl, q1, q2, as, q3, q4⟩
    exact ⟨hst.app, (q2.cons).app, _, fun c hc => lx_kw hkw follow32 (Lx.sp (q3 c hc)), g_return1 q4 (fun p' x' hp hx' => r_return hc hn hp rfl hx')⟩

omit hS in
theorem p_assignStmt {p x y op lb st f} (hop : op ∈ assignOps) (hx : OkExpr x) (hy : OkExpr y) (hfo : Fo (.assign {} x p op lb y)) (ht : tupleTight (.assign {} x p op lb y) = true) (hc : Clean st) (hd : st.depth = 0) :
    Adds st (exprBody ft pr f (.assign {} x p op lb y) 0 st) (Y false (line st) .smallStmt (OE (fun z => RQ ft (.assign {} x p op lb y) z 0 st (exprBody ft pr f (.assign {} x p op lb y) 0 st)))) := by
  obtain ⟨f1, f2⟩ := fo_assign hfo
  refine (p_assign (P1 := fun X as => Gen as (.n .expr) (OE (fun z => RQ ft x z 1 X (pr x 1 X)))) (P2 := fun Y as => Gen as (.n .expr) (OE (fun z => RQ ft y z 2 Y (pr y 2 Y)))) H hop hc (fun _ => .inl ⟨hd, ht⟩)
    (fun st1 hc1 hd1 => H.expr x 1 false st1 hx f1 (by omega) hc1 hd1) (fun st1 hc1 hd1 => H.expr y 2 false st1 hy f2 (by omega) hc1 hd1)).mono (fun _ q => q.mono ?_)
  rintro _ ⟨as1, as2, k, X, Y, rfl, q1, q2, _, q4⟩
  exact g_assignStmt hop q1 q2 (fun x' y' p' hx' hy' => q4 x' y' p' hx' hy')

omit hS in
theorem p_augStmt {p x y op lb st f} (hop : op ∈ augOps) (hx : OkExpr x) (hy : OkExpr y) (hfo : Fo (.binary {} x p op lb y)) (ht : tupleTight (.binary {} x p op lb y) = true) (hc : Clean st) (hd : st.depth = 0) :
    Adds st (exprBody ft pr f (.binary {} x p op lb y) 0 st) (Y false (line st) .smallStmt (OE (fun z => RQ ft (.binary {} x p op lb y) z 0 st (exprBody ft pr f (.binary {} x p op lb y) 0 st)))) := by
  obtain ⟨f1, f2⟩ := fo_binary hfo
  unfold tupleTight at ht
  simp only [Bool.and_eq_true] at ht
  have h0 := opPrec_aug hop
  have hb : exprBody ft pr f (.binary {} x p op lb y) 0 st = { pr y (opPrec op + 1) (binY lb op (pr x (opPrec op) (binX lb (indent st) st))) with margin := st.margin } := by
    unfold exprBody
    dsimp only
    rw [withParen_no (p := opPrec op) (Nat.zero_le _)]
    cases lb <;> rfl
  rw [hb]
  obtain ⟨hcx', hA⟩ := infix_spec (P1 := fun as => Gen as (.n .expr) (OE (fun z => RQ ft x z (opPrec op) (binX lb (indent st) st) (pr x (opPrec op) (binX lb (indent st) st)))))
    (P2 := fun as => Gen as (.n .expr) (OE (fun z => RQ ft y z (opPrec op + 1) (binY lb op (pr x (opPrec op) (binX lb (indent st) st)))
      (pr y (opPrec op + 1) (binY lb op (pr x (opPrec op) (binX lb (indent st) st))))))) (b := false) hc H.keep
    (by simp [allOps, hop]) (fun hc2 he => (H.expr x _ false _ hx f1 (by omega) hc2 (fun _ => .inl ⟨he.trans hd, ht.1⟩)).mono (fun _ q => q.at (line_binX ..)))
    (fun _ hc2 he => H.expr y _ false _ hy f2 (by omega) hc2 (fun _ => .inl ⟨he.trans hd, ht.2⟩)) (fun _ _ => hd)
  refine hA.mono ?_
  rintro s ⟨q1, q2, as1, as2, k, q3, q4, q5⟩
  exact ⟨q1, q2, _, q3, g_augStmt hop q4 q5 (fun x' y' p' hx' hy' => r_binary (Nat.zero_le _) (op_nl (by simp [allOps, hop])) hc rfl hcx' rfl hx' hy')⟩

theorem p_for {p v x body st f} (hft : ft ≠ .module) (hv : OkVars v) (hx : OkExpr x) (hl : body ≠ []) (hok : ∀ s ∈ body, OkStmt s) (hfo : Fo (.forS {} p v x body)) (ht : tupleTight (.forS {} p v x body) = true)
    (hc : Clean st) (hd : st.depth = 0) : AddsN st (exprBody ft pr f (.forS {} p v x body) 0 st)
      (Ln st.margin (line st) (fun as => Gen as (.n (.blockStmt false)) (OE (fun y => RQ ft (.forS {} p v x body) y 0 st (exprBody ft pr f (.forS {} p v x body) 0 st))))) := by
  obtain ⟨f1, f2, f3⟩ := fo_for hfo
  unfold tupleTight at ht
  simp only [Bool.and_eq_true] at ht
  have hb : exprBody ft pr f (.forS {} p v x body) 0 st = nestedStatements ft pr body (emit b!":" (pr x 0 (emit b!" in " (pr v 0 (emit b!"for " st))))) := rfl
  rw [hb]
  have k1 : Keep st (pr v 0 (emit b!"for " st)) := H.keep v 0 (emit b!"for " st)
  have k2 : Keep st (emit b!":" (pr x 0 (emit b!" in " (pr v 0 (emit b!"for " st))))) := k1.trans (H.keep x 0 (emit b!" in " (pr v 0 (emit b!"for " st))))
  have l0 : line (emit b!"for " st) = line st := line_emit0 (by decide) _
  have l1 : line (emit b!" in " (pr v 0 (emit b!"for " st))) = line (pr v 0 (emit b!"for " st)) := line_emit0 (by decide) _
  have h1 := (Adds.emit0 (R := (· = b!"for ")) hc rfl).trans (fun hc' => lined (H.vars v false _ hv f1 hc' (fun _ => .inl ⟨hd, ht.1.1⟩)))
    (R := fun s => ∃ s1, s = b!"for " ++ s1 ∧ Y false (line st) .loopVars (OE (fun y => RQ ft v y 0 (emit b!"for " st) (pr v 0 (emit b!"for " st)))) s1 ∧ line (pr v 0 (emit b!"for " st)) = line st + nl s1)
    (by rintro _ s2 rfl ⟨q, e⟩; rw [l0] at q e; exact ⟨s2, rfl, q, e⟩)
  have h2 := h1.emit (t := b!" in ") (R := fun s => ∃ s1, s = b!"for " ++ s1 ++ b!" in " ∧ Y false (line st) .loopVars (OE (fun y => RQ ft v y 0 (emit b!"for " st) (pr v 0 (emit b!"for " st)))) s1 ∧
      line (pr v 0 (emit b!"for " st)) = line st + nl s1) (by rintro _ ⟨s1, rfl, q⟩; exact ⟨s1, rfl, q⟩)
  have h3 := h2.trans (fun hc' => H.expr x 0 false _ hx f2 (by omega) hc' (fun _ => .inl ⟨k1.1.trans hd, ht.1.2⟩))
    (R := fun s => ∃ s1 s2, s = b!"for " ++ s1 ++ b!" in " ++ s2 ∧ Y false (line st) .loopVars (OE (fun y => RQ ft v y 0 (emit b!"for " st) (pr v 0 (emit b!"for " st)))) s1 ∧
      Y false (line st + nl s1) .expr (OE (fun y => RQ ft x y 0 (emit b!" in " (pr v 0 (emit b!"for " st))) (pr x 0 (emit b!" in " (pr v 0 (emit b!"for " st)))))) s2)
    (by rintro _ s2 ⟨s1, rfl, q, e⟩ q2; rw [l1, e] at q2; exact ⟨s1, s2, rfl, q, q2⟩)
  have h4 := h3.emit (t := b!":") (R := YP false (line st) (fun as => ∃ as1 as2 la lb, as = W (line st) K.for_ b!"for" :: (as1 ++ (W la K.in_ b!"in" :: (as2 ++ [W lb 58 b!":"]))) ∧
      Gen as1 (.n .loopVars) (OE (fun y => RQ ft v y 0 (emit b!"for " st) (pr v 0 (emit b!"for " st)))) ∧
      Gen as2 (.n .expr) (OE (fun y => RQ ft x y 0 (emit b!" in " (pr v 0 (emit b!"for " st))) (pr x 0 (emit b!" in " (pr v 0 (emit b!"for " st)))))))) (by
    rintro _ ⟨s1, s2, rfl, ⟨_, _, as1, q3, q4⟩, _, _, as2, r3, r4⟩
    have e : b!"for " ++ s1 ++ b!" in " ++ s2 ++ b!":" = b!"for" ++ 32 :: (s1 ++ 32 :: (b!"in" ++ 32 :: (s2 ++ [58]))) := by simp
    rw [e]
    refine ⟨StartOK.app ⟨102, _, rfl, by unfold Start; decide⟩, EndOK.app (EndOK.cons (EndOK.app (EndOK.cons (EndOK.app (EndOK.cons (EndOK.app (EndOK.single (by decide)))))))), _, fun c hc => ?_, as1, as2, line st + nl s1, line st + nl s1 + nl s2, rfl, q4, r4⟩
    exact lx_kw (k := K.for_) ⟨⟨_, _, rfl, by decide, by decide⟩, by decide, by decide⟩ follow32 (Lx.sp (Lx.appT q3 follow32 (Lx.sp
      (lx_kw (k := K.in_) ⟨⟨_, _, rfl, by decide, by decide⟩, by decide, by decide⟩ follow32 (Lx.sp (Lx.appT r3 follow58 (lx_colon (Lx.nil false _ c)))))))))
  obtain ⟨h5, _⟩ := nested_ln (ft := ft) H hS h4 (k2.1.trans hd) hl hok f3 (tupleTightL_mem ht.2)
  rw [k2.2] at h5
  refine h5.mono (fun t q => q.mono ?_)
  rintro _ _ ⟨_, a2, rfl, ⟨as1, as2, la, lb, rfl, g1, g2⟩, g3⟩
  exact (g_for (l2 := la) (l3 := lb) g1 g2 g3 (fun p' v' x' body' hp hv' hx' hb' => r_for hft hc hp rfl hv' rfl hx' rfl hl (fun s hs => OkStmt.plain (hok s hs)) hb')).cast (by simp)

theorem p_if {p x body ep els st f} (hft : ft ≠ .module) (he : ep.comments = {}) (hx : OkExpr x) (hl : body ≠ []) (hok : ∀ s ∈ body, OkStmt s) (hok2 : ∀ s ∈ els, OkStmt s) (hfo : Fo (.ifS {} p x body ep els))
    (ht : tupleTight (.ifS {} p x body ep els) = true) (hc : Clean st) (hd : st.depth = 0) :
    AddsN st (exprBody ft pr f (.ifS {} p x body ep els) 0 st)
      (Ln st.margin (line st) (fun as => Gen as (.n (.blockStmt false)) (OE (fun y => RQ ft (.ifS {} p x body ep els) y 0 st (exprBody ft pr f (.ifS {} p x body ep els) 0 st))))) := by
  obtain ⟨f1, f2, f3⟩ := fo_if hfo
  unfold tupleTight at ht
  simp only [Bool.and_eq_true] at ht
  have hb : exprBody ft pr f (.ifS {} p x body ep els) 0 st = ifChain ft pr f true false x body ep els st := rfl
  rw [hb]
  cases f with
  | zero => exact ⟨hc.1, fun hb => by cases hb⟩
  | succ f =>
    rw [ifChain_first hc hl]
    obtain ⟨h1, h2⟩ := if_first (ft := ft) H hS hc hd hx f1 ht.1.1 hl hok f2 (tupleTightL_mem ht.1.2)
    refine chain_spec H hS f rfl (h1.mono (fun t q => q.mono (fun as _ g => g.mono ?_))) h2 he hok2 f3 (tupleTightL_mem ht.2)
    rintro v ⟨b, bs, e, rfl, hp, hbr⟩
    exact ⟨b, [], e, fun more ep' els' hch => r_if hft hc hp hbr hch⟩

end

end Verif.Again
