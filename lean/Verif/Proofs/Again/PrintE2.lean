import Verif.Proofs.Again.PrintE
/-
What the printer writes for an expression is read as an expression that is printed in the same way: operators, lambdas.
-/
namespace Verif.Again
open Verif Verif.Syntax Verif.Lexer Verif.Print Verif.Grammar Verif.Parser Verif.Round

section
variable {ft : FileType} {pr : Pr} (H : PrOK ft pr)
include H

theorem p_unary {p op x outer b st} (hop : op ∈ unOps) (hx : Ok x) (hfx : Fo x) (hcond : isCond x = false) (hc : Clean st) (hd : Dep b st (.unary {} p op x)) :
    Adds st (withParen precUnary outer (fun st =>
      let st := if op = b!"not" then emit b!"not " st else emit op st
      if x.isNil then st else pr x precSuffix st) st)
      (Y b (line st) (fits (.unary {} p op x) outer) (OE (fun y => RQ ft (.unary {} p op x) y outer st (withParen precUnary outer (fun st =>
      let st := if op = b!"not" then emit b!"not " st else emit op st
      if x.isNil then st else pr x precSuffix st) st)))) := by
  have hbd : (fun st => let st := if op = b!"not" then emit b!"not " st else emit op st
      if x.isNil then st else pr x precSuffix st) = fun st => pr x 14 (emit (unText op) st) := by
    funext st
    dsimp only
    rw [hx.isNil]
    simp only [Bool.false_eq_true, if_false]
    unfold unText
    split <;> rfl
  rw [hbd]
  refine withParen_spec (x := .test 13 false) rfl rfl hc hd ?_ (fun as R g => test_any2 (test_up (by omega) (show 2 ≤ 13 by omega) (by omega) g))
  intro b' st1 o ho hc1 hd1
  have hb : Clean (emit (unText op) st1) → Adds (emit (unText op) st1) (pr x 14 (emit (unText op) st1)) (Y b' (line (emit (unText op) st1)) .primaryExpr (OE (fun y => RQ ft x y 14 (emit (unText op) st1) (pr x 14 (emit (unText op) st1))))) :=
    fun hc2 => (H.base hx hfx hcond hc2 (dep_sub hd1 rfl (fun h => h) (fun h => h))).mono (fun _ q => q.1)
  have hle : line (emit (unText op) st1) = line st1 := by
    refine line_emit0 ?_ _
    have key : ∀ op ∈ unOps, nl (unText op) = 0 := by decide
    exact key op hop
  rw [hle] at hb
  have fin : ∀ {as}, Gen as (.n .primaryExpr) (OE (fun y => RQ ft x y 14 (emit (unText op) st1) (pr x 14 (emit (unText op) st1)))) →
      Gen (W (line st1) (unKind op) op :: as) (.n (.test 13 false)) (OE (fun y => RQ ft (.unary {} p op x) y o st1 (pr x 14 (emit (unText op) st1)))) :=
    fun g => g_unary hop g (fun p' x' hp' hx' => r_unary ho hc1 hx.isNil hx' hp')
  generalize hpr : pr x 14 (emit (unText op) st1) = r at hb fin ⊢
  have sym : ∀ (t : Bytes), t = op → unText t = t → (∀ c, Start c → TextTok t c (Round.W (unKind t) t)) → depthChange (unKind t) = 0 → StartOK t → nl t = 0 →
      Adds st1 r (Y b' (line st1) (.test 13 false) (OE (fun y => RQ ft (.unary {} p op x) y o st1 r))) := by
    rintro t rfl hu ht hk hs hn
    rw [hu] at hb fin
    refine (Adds.emit0 (R := (· = t)) hc1 rfl).trans (fun hc' => hb hc') ?_
    rintro _ s2 rfl ⟨q1, q2, as, q3, q4⟩
    refine ⟨hs.app, q2.app, _, fun c hc => ?_, fin q4⟩
    obtain ⟨y, r, rfl, hy⟩ := q1
    exact Lx.pre0 (ht y hy) hk hn (q3 c hc)
  have hop' := hop
  simp only [unOps, List.mem_cons, List.not_mem_nil, or_false] at hop'
  rcases hop' with rfl | rfl | rfl | rfl
  · refine (Adds.emit0 (R := (· = b!"not ")) hc1 rfl).trans (fun hc' => hb hc') ?_
    rintro _ s2 rfl ⟨q1, q2, as, q3, q4⟩
    refine ⟨⟨110, _, rfl, by unfold Start; decide⟩, q2.app, _, fun c hc => ?_, fin q4⟩
    exact lx_kw (k := K.not) (t := b!"not") ⟨⟨_, _, rfl, by decide, by decide⟩, by decide, by decide⟩ follow32 (Lx.sp (q3 c hc))
  · exact sym b!"-" rfl (by decide) (fun c h => tok_minus (start_ne h).1 (start_ne h).2.2.1) (by decide) ⟨45, [], rfl, by unfold Start; decide⟩ (by decide)
  · exact sym b!"+" rfl (by decide) (fun c h => tok_plus (start_ne h).1) (by decide) ⟨43, [], rfl, by unfold Start; decide⟩ (by decide)
  · exact sym b!"~" rfl (by decide) (fun c h => tok_tilde c) (by decide) ⟨126, [], rfl, by unfold Start; decide⟩ (by decide)

theorem p_binary {x p op lb y outer b st} (hop : op ∈ binOps) (hx : Ok x) (hfx : Fo x) (hcx : isCond x = false) (hy : Ok y) (hfy : Fo y) (hcy : isCond y = false) (hc : Clean st)
    (hd : Dep b st (.binary {} x p op lb y)) {body : St → St} (hbody : ∀ st, body st = { pr y (opPrec op + 1) (binY lb op (pr x (opPrec op) (binX lb (indent st) st))) with margin := st.margin }) :
    Adds st (withParen (opPrec op) outer body st) (Y b (line st) (fits (.binary {} x p op lb y) outer) (OE (fun z => RQ ft (.binary {} x p op lb y) z outer st (withParen (opPrec op) outer body st)))) := by
  obtain ⟨h4, h12⟩ := opPrec_bin hop
  have hf : fits (.binary {} x p op lb y) outer = if opPrec op < outer then .primary else .test (opPrec op) false := by
    unfold fits; simp only; rw [if_neg (show ¬ opPrec op = 0 by omega)]
  rw [hf]
  refine withParen_spec rfl rfl hc hd ?_ (fun as R g => test_any2 (test_up (by omega) (show 2 ≤ opPrec op by omega) (by omega) g))
  intro b' st1 o ho hc1 hd1
  rw [hbody]
  obtain ⟨hcx', hA⟩ := infix_spec (P1 := fun as => Gen as (.n (.test (opPrec op) false)) (OE (fun z => RQ ft x z (opPrec op) (binX lb (indent st1) st1) (pr x (opPrec op) (binX lb (indent st1) st1)))))
    (P2 := fun as => Gen as (.n (.test (opPrec op + 1) false)) (OE (fun z => RQ ft y z (opPrec op + 1) (binY lb op (pr x (opPrec op) (binX lb (indent st1) st1)))
      (pr y (opPrec op + 1) (binY lb op (pr x (opPrec op) (binX lb (indent st1) st1))))))) (b := b') hc1 H.keep
    (by simp [allOps, hop]) (fun hc2 he => (H.ok x _ b' _ hx hfx (by omega) hc2 (bin_dep1 hd1 he)).mono (fun _ q => (q.mono (fun _ g => fits_op h4 (by omega) hcx hx g)).at (line_binX ..)))
    (fun _ hc2 he => (H.ok y _ b' _ hy hfy (by omega) hc2 (bin_dep2 hd1 he)).mono (fun _ q => q.mono (fun _ g => fits_op (by omega) (by omega) hcy hy g))) (lb_dep hd1)
  refine hA.mono ?_
  rintro s ⟨q1, q2, as1, as2, k, q3, q4, q5⟩
  refine ⟨q1, q2, _, q3, g_binary hop q4 q5 ?_⟩
  intro x' y' p' hx' hy'
  exact r_binary ho (op_nl (by simp [allOps, hop])) hc1 rfl hcx' rfl hx' hy'

theorem p_is {x p op lb y outer b st} (hop : op ∈ isOps) (hx : Ok x) (hfx : Fo x) (hcx : isCond x = false) (hox : openEnd x = false) (hy : Ok y) (hfy : Fo y) (hcy : isCond y = false)
    (hyop : (op = b!"is" ∧ isNot y = false) ∨ (op = b!"is not" ∧ isBin y = false)) (hc : Clean st) (hd : Dep b st (.binary {} x p op lb y))
    {body : St → St} (hbody : ∀ st, body st = { pr y (opPrec op + 1) (binY lb op (pr x (opPrec op) (binX lb (indent st) st))) with margin := st.margin }) :
    Adds st (withParen (opPrec op) outer body st) (Y b (line st) (fits (.binary {} x p op lb y) outer) (OE (fun z => RQ ft (.binary {} x p op lb y) z outer st (withParen (opPrec op) outer body st)))) := by
  have h0 := opPrec_is hop
  have hf : fits (.binary {} x p op lb y) outer = if opPrec op < outer then .primary else .test 3 (isLambda y) := by
    unfold fits; simp only; rw [if_pos h0]
  rw [hf]
  refine withParen_spec rfl rfl hc hd ?_ (fun as R g => test_any2 (test_up (by omega) (show 2 ≤ 3 by omega) (by omega) g))
  intro b' st1 o ho hc1 hd1
  rw [hbody]
  have hr := fun (x' y' : Expr) (p' : Pos) (hcx' : Clean (pr x (opPrec op) (binX lb (indent st1) st1))) (hx' : RQ ft x x' (opPrec op) (binX lb (indent st1) st1) (pr x (opPrec op) (binX lb (indent st1) st1)))
    (hy' : RQ ft y y' (opPrec op + 1) (binY lb op (pr x (opPrec op) (binX lb (indent st1) st1))) (pr y (opPrec op + 1) (binY lb op (pr x (opPrec op) (binX lb (indent st1) st1))))) =>
    r_binary (c := {}) (p := p) (p' := p') ho (op_nl (by simp [allOps, hop])) hc1 rfl hcx' rfl hx' hy'
  rw [h0] at hr ⊢
  obtain ⟨hcx', hA⟩ := infix_spec (px := 0) (py := 1) (P1 := fun as => Gen as (.n (.test 3 false)) (OE (fun z => RQ ft x z 0 (binX lb (indent st1) st1) (pr x 0 (binX lb (indent st1) st1)))))
    (P2 := fun as => Gen as (.n (fits y 1)) (OE (fun z => RQ ft y z 1 (binY lb op (pr x 0 (binX lb (indent st1) st1)))
      (pr y 1 (binY lb op (pr x 0 (binX lb (indent st1) st1))))))) (b := b') hc1 H.keep
    (by simp [allOps, hop]) (fun hc2 he => (H.ok x 0 b' _ hx hfx (by omega) hc2 (bin_dep1 hd1 he)).mono (fun _ q => (q.mono (fun _ g => by have := fits0 hcx hx g; rwa [hox] at this)).at (line_binX ..)))
    (fun _ hc2 he => (H.ok y 1 b' _ hy hfy (by omega) hc2 (bin_dep2 hd1 he))) (lb_dep hd1)
  refine hA.mono ?_
  rintro s ⟨q1, q2, as1, as2, k, q3, q4, q5⟩
  rcases hyop with ⟨rfl, hn⟩ | ⟨rfl, hn⟩
  · exact ⟨q1, q2, _, q3, g_is (fun y' hy' => same_not hy'.same hn) q4 (fits1 hcy hy q5) (fun x' y' p' hx' hy' => hr x' y' p' hcx' hx' hy')⟩
  · exact ⟨q1, q2, _, q3, g_isNot q4 (fits1' hcy hn hy q5) (fun x' y' p' hx' hy' => hr x' y' p' hcx' hx' hy')⟩

theorem p_cond {t i te el e o b st} (ho : o ≤ 14) (ht : Ok t) (hft : Fo t) (hte : Ok te) (hfte : Fo te) (he : Ok e) (hfe : Fo e) (hce : isCond e = false) (hc : Clean st) (hd : Dep b st (.cond {} t i te el e))
    {s1 s2 : St} (hs1 : s1 = emit b!" if " (pr t 3 st)) (hs2 : s2 = emit b!" else " (pr te 3 s1)) :
    Adds st (pr e 3 s2) (Y b (line st) (.test 2 false) (OE (fun y => RQ ft (.cond {} t i te el e) y o st (pr e 3 s2)))) := by
  have d1 : Dep b st t := dep_sub hd rfl (fun h => by unfold tupleTight at h; simp only [Bool.and_eq_true] at h; exact h.1.1) (fun h => by unfold tight at h; simp only [Bool.and_eq_true] at h; exact h.1.1)
  have d2 : ∀ st1 : St, st1.depth = st.depth → Dep b st1 te := fun st1 h => dep_sub hd h (fun h => by unfold tupleTight at h; simp only [Bool.and_eq_true] at h; exact h.1.2) (fun h => by unfold tight at h; simp only [Bool.and_eq_true] at h; exact h.1.2)
  have d3 : ∀ st1 : St, st1.depth = st.depth → Dep b st1 e := fun st1 h => dep_sub hd h (fun h => by unfold tupleTight at h; simp only [Bool.and_eq_true] at h; exact h.2) (fun h => by unfold tight at h; simp only [Bool.and_eq_true] at h; exact h.2)
  have k1 : s1.depth = st.depth := by rw [hs1]; exact (H.keep _ _ _).1
  have k2 : s2.depth = st.depth := by rw [hs2]; exact ((H.keep _ _ _).1).trans k1
  have l1 : line s1 = line (pr t 3 st) := by rw [hs1]; exact line_emit0 (by decide) _
  have l2 : line s2 = line (pr te 3 s1) := by rw [hs2]; exact line_emit0 (by decide) _
  have hr := fun (t' te' e' : Expr) (i' el' : Pos) (h1 : RQ ft t t' 3 st (pr t 3 st)) (h2 : RQ ft te te' 3 s1 (pr te 3 s1)) (h3 : RQ ft e e' 3 s2 (pr e 3 s2)) =>
    r_cond (c := {}) (i := i) (el := el) (i' := i') (el' := el') ho hc h1 hs1 h2 hs2 h3
  have h1 := (lined (H.ok t 3 b st ht hft (by omega) hc d1)).emit (t := b!" if ") (R := fun s => ∃ t1, s = t1 ++ b!" if " ∧ Y b (line st) (fits t 3) (OE (fun y => RQ ft t y 3 st (pr t 3 st))) t1 ∧ line s1 = line st + nl t1)
    (fun s q => ⟨s, rfl, q.1, l1.trans q.2⟩)
  rw [← hs1] at h1
  have h2 := h1.trans (fun hc' => lined (H.ok te 3 b _ hte hfte (by omega) hc' (d2 _ k1))) (R := fun s => ∃ t1 t2, s = t1 ++ b!" if " ++ t2 ∧ Y b (line st) (fits t 3) (OE (fun y => RQ ft t y 3 st (pr t 3 st))) t1 ∧
      Y b (line st + nl t1) (fits te 3) (OE (fun y => RQ ft te y 3 s1 (pr te 3 s1))) t2 ∧ line s2 = line st + nl t1 + nl t2)
    (by rintro _ t2 ⟨t1, rfl, q, e1⟩ ⟨r, e2⟩; rw [e1] at r e2; exact ⟨t1, t2, rfl, q, r, l2.trans e2⟩)
  have h3 := h2.emit (t := b!" else ") (R := fun s => ∃ t1 t2, s = t1 ++ b!" if " ++ t2 ++ b!" else " ∧ Y b (line st) (fits t 3) (OE (fun y => RQ ft t y 3 st (pr t 3 st))) t1 ∧
      Y b (line st + nl t1) (fits te 3) (OE (fun y => RQ ft te y 3 s1 (pr te 3 s1))) t2 ∧ line s2 = line st + nl t1 + nl t2)
    (by rintro _ ⟨s1, s2, rfl, q⟩; exact ⟨s1, s2, rfl, q⟩)
  rw [← hs2] at h3
  refine h3.trans (fun hc' => H.ok e 3 b _ he hfe (by omega) hc' (d3 _ k2)) ?_
  rintro _ t3 ⟨t1, t2, rfl, ⟨q1, q2, as1, q3, q4⟩, ⟨r1, r2, as2, r3, r4⟩, e0⟩ ⟨w1, w2, as3, w3, w4⟩
  rw [e0] at w3
  have e : t1 ++ b!" if " ++ t2 ++ b!" else " ++ t3 = t1 ++ 32 :: (b!"if" ++ 32 :: (t2 ++ 32 :: (b!"else" ++ 32 :: t3))) := by simp
  rw [e]
  refine ⟨q1.app, ((((w2.cons).app).cons.app).cons.app).cons.app, _, fun c hc => ?_, g_cond (ln := line st + nl t1) (l2 := line st + nl t1 + nl t2) (fits3c ht q4) (test_any2 (fits3c hte r4)) (fits3 hce he w4) (fun x' y' z' p' q' a1 a2 a3 => hr x' y' z' p' q' a1 a2 a3)⟩
  exact Lx.appT q3 follow32 (Lx.sp (lx_kw (k := K.if_) ⟨⟨_, _, rfl, by decide, by decide⟩, by decide, by decide⟩ follow32 (Lx.sp
    (Lx.appT r3 follow32 (Lx.sp (lx_kw (k := K.else_) ⟨⟨_, _, rfl, by decide, by decide⟩, by decide, by decide⟩ follow32 (Lx.sp (w3 c hc))))))))

/-! ## Lambda -/

theorem p_lambdaParams {b : Bool} {d : Nat} : ∀ (ps : List Expr) (first : Bool) (st : St), (∀ a ∈ ps, OkParam false a ∧ Fo a) → Clean st → st.depth = d →
    (∀ a ∈ ps, ∀ st, st.depth = d → Dep b st a) →
    Adds st (lambdaParams pr first ps st) (fun s => (ps = [] ∧ s = [] ∨ EndOK s ∧ ∃ r, s = (if first then 32 else 44) :: r) ∧
      ∃ ass, All2 (ParamG ft pr false) (itemsL pr first ps st) ass ∧ T b (line st) s (if first then joinC ass else ass.flatMap (comma :: ·))) := by
  intro ps
  induction ps with
  | nil =>
    intro first st _ hc _ _
    exact (Adds.refl hc).mono (fun s e => ⟨.inl ⟨rfl, e⟩, [], .nil, fun c _ => by rw [e]; cases first <;> exact Lx.nil ..⟩)
  | cons x ps ih =>
    intro first st hp hc hd hdep
    unfold lambdaParams itemsL
    dsimp only
    have h0 : Adds st (emit b!" " (if first then st else emit b!"," st)) (· = if first then b!" " else b!", ") := by
      cases first
      · exact (Adds.emit0 (R := (· = b!",")) hc rfl).emit (by rintro _ rfl; rfl)
      · exact Adds.emit0 hc rfl
    have hd0 : (emit b!" " (if first then st else emit b!"," st)).depth = d := by cases first <;> exact hd
    have hl0 : line (emit b!" " (if first then st else emit b!"," st)) = line st := by
      rw [line_emit0 (by decide)]
      cases first
      · exact line_emit0 (by decide) st
      · rfl
    generalize emit b!" " (if first then st else emit b!"," st) = st1 at h0 hd0 hl0 ⊢
    have h1 := h0.trans (fun hc' => lined (H.param false x b _ (hp x (by simp)).1 (hp x (by simp)).2 hc' (hdep x (by simp) _ hd0))) (R := fun s => ∃ s1, s = (if first then b!" " else b!", ") ++ s1 ∧ El b (line st) (ParamG ft pr false) (x, st1) s1 ∧
        line (pr x 0 st1) = line st + nl s1)
      (by rintro _ s2 rfl ⟨q, e⟩; rw [hl0] at q e; exact ⟨s2, rfl, q, e⟩)
    refine h1.trans (fun hc' => ih false _ (fun a ha => hp a (by simp [ha])) hc' (((H.keep _ _ _).1).trans hd0) (fun a ha => hdep a (by simp [ha]))) ?_
    rintro _ s2 ⟨s1, rfl, ⟨he, as, ht, hel⟩, e1⟩ ⟨h3, ass, h4, h5⟩
    have hfol : ∀ c, Follow c → Follow (s2.headD c) := by
      intro c hc
      rcases h3 with ⟨_, rfl⟩ | ⟨_, r, rfl⟩
      · exact hc
      · exact follow44
    simp only [Bool.false_eq_true, if_false] at h5
    rw [e1] at h5
    refine ⟨.inr ⟨?_, ?_⟩, as :: ass, .cons _ _ _ _ hel h4, fun c hc => ?_⟩
    · rcases h3 with ⟨_, rfl⟩ | ⟨h, _⟩
      · rw [List.append_nil]; exact he.app
      · exact h.app
    · cases first <;> exact ⟨_, rfl⟩
    · have hrest := Lx.appT ht (hfol c hc) (h5 c hc)
      cases first
      · have := lx_comma (Lx.sp hrest)
        simpa using this
      · have := Lx.sp hrest
        rw [if_pos rfl, joinC_cons]
        simpa using this

theorem p_lambda {p ps bd outer b st} (hps : ∀ a ∈ ps, OkParam false a ∧ Fo a) (hb : Ok bd) (hfb : Fo bd) (hc : Clean st) (hd : Dep b st (.lambda {} p ps [bd]))
    {body : St → St} (hbody : ∀ st, body st = pr bd 0 (emit b!": " (lambdaParams pr true ps (emit b!"lambda" st)))) :
    Adds st (withParen precColon outer body st) (Y b (line st) (fits (.lambda {} p ps [bd]) outer) (OE (fun y => RQ ft (.lambda {} p ps [bd]) y outer st (withParen precColon outer body st)))) := by
  refine withParen_spec (x := .test 13 true) rfl rfl hc hd ?_ (fun as R g => test_any2 (test_up (by omega) (show 2 ≤ 13 by omega) (by omega) g))
  intro b' st1 o ho hc1 hd1
  rw [hbody]
  have dps : ∀ a ∈ ps, ∀ st, st.depth = st1.depth → Dep b' st a := by
    intro a ha st2 h2 hb'
    rcases hd1 hb' with ⟨h, h'⟩ | h
    · unfold tupleTight at h'; simp only [Bool.and_eq_true] at h'
      exact .inl ⟨h2.trans h, tupleTightL_mem h'.1 a ha⟩
    · unfold tight at h; simp only [Bool.and_eq_true] at h
      exact .inr (tightL_mem h.1 a ha)
  have db : ∀ st, st.depth = st1.depth → Dep b' st bd := by
    intro st2 h2
    refine dep_sub hd1 h2 (fun h => ?_) (fun h => ?_)
    · unfold tupleTight at h; simp only [Bool.and_eq_true] at h
      exact tupleTightL_mem h.2 bd (by simp)
    · unfold tight at h; simp only [Bool.and_eq_true] at h
      exact tightL_mem h.2 bd (by simp)
  have h0 : Adds st1 (emit b!"lambda" st1) (· = b!"lambda") := Adds.emit0 hc1 rfl
  have k0 : (emit b!"lambda" st1).depth = st1.depth := rfl
  have l0 : line (emit b!"lambda" st1) = line st1 := line_emit0 (by decide) _
  have h1 := h0.trans (fun hc' => lined (p_lambdaParams H ps true (emit b!"lambda" st1) hps hc' k0 dps)) (R := fun s => ∃ s1 ass, s = b!"lambda" ++ s1 ∧ (s1 = [] ∨ ∃ r, s1 = 32 :: r) ∧
      All2 (ParamG ft pr false) (itemsL pr true ps (emit b!"lambda" st1)) ass ∧ T b' (line st1) s1 (joinC ass) ∧ line (lambdaParams pr true ps (emit b!"lambda" st1)) = line st1 + nl s1) (by
    rintro _ s1 rfl ⟨⟨h3, ass, h4, h5⟩, h6⟩
    rw [l0] at h5 h6
    refine ⟨s1, ass, rfl, ?_, h4, h5, h6⟩
    rcases h3 with ⟨_, h⟩ | ⟨_, h⟩
    · exact .inl h
    · exact .inr h)
  have h2 := h1.emit (t := b!": ") (R := fun s => ∃ s1 ass, s = b!"lambda" ++ s1 ++ b!": " ∧ (s1 = [] ∨ ∃ r, s1 = 32 :: r) ∧
      All2 (ParamG ft pr false) (itemsL pr true ps (emit b!"lambda" st1)) ass ∧ T b' (line st1) s1 (joinC ass) ∧ line (lambdaParams pr true ps (emit b!"lambda" st1)) = line st1 + nl s1)
    (by rintro _ ⟨s1, ass, rfl, h⟩; exact ⟨s1, ass, rfl, h⟩)
  have k1 : (emit b!": " (lambdaParams pr true ps (emit b!"lambda" st1))).depth = st1.depth := (keep_lambda H.keep ps true _).1
  have l1 : line (emit b!": " (lambdaParams pr true ps (emit b!"lambda" st1))) = line (lambdaParams pr true ps (emit b!"lambda" st1)) := line_emit0 (by decide) _
  refine h2.trans (fun hc' => H.any hb hfb (Nat.zero_le 2) hc' (db _ k1)) ?_
  rintro _ s2 ⟨s1, ass, rfl, hs1, h4, h5, h6⟩ ⟨q1, q2, as2, q3, q4⟩
  rw [l1, h6] at q3
  have e : b!"lambda" ++ s1 ++ b!": " ++ s2 = b!"lambda" ++ (s1 ++ 58 :: 32 :: s2) := by simp
  rw [e]
  refine ⟨⟨108, _, rfl, by unfold Start; decide⟩, ((q2.cons).cons.app).app, _, fun c hc => ?_, g_lambda (ρ := RI ft pr) (ln := line st1) (l2 := line st1 + nl s1) h4 q4 ?_⟩
  · refine lx_kw (k := K.lambda) ⟨⟨_, _, rfl, by decide, by decide⟩, by decide, by decide⟩ ?_ (Lx.appT h5 follow58 (lx_colon (Lx.sp (q3 c hc))))
    rcases hs1 with rfl | ⟨r, rfl⟩
    · exact follow58
    · exact follow32
  · intro p' ps' b' hp' hps' hb'
    exact r_lambda ho hc1 hp' hps' rfl hb'

end
end Verif.Again
