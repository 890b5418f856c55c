import Verif.Proofs.Again.PrintE4
/-
What the printer writes for an expression is read as an expression that is printed in the same way: the printer of expressions.
-/
namespace Verif.Again
open Verif Verif.Syntax Verif.Lexer Verif.Print Verif.Grammar Verif.Parser Verif.Round

/-- what is printed for an element, as tokens -/
def EP (b : Bool) (ln : Nat) (P : List LTok → Prop) (s : Bytes) : Prop := EndOK s ∧ ∃ as, T b ln s as ∧ P as

theorem YP.ep {b : Bool} {ln : Nat} {P Q : List LTok → Prop} {s : Bytes} (h : YP b ln P s) (h' : ∀ as, P as → Q as) : EP b ln Q s :=
  ⟨h.2.1, h.2.2.choose, h.2.2.choose_spec.1, h' _ h.2.2.choose_spec.2⟩

theorem clauseG_mono {ρ ρ' : It → Expr → Prop} {it : It} {as} (h : ClauseG ρ it as) (hr : ∀ y, ρ it y → ρ' it y) : ClauseG ρ' it as := by
  obtain ⟨x, st⟩ := it
  unfold ClauseG at h ⊢
  dsimp only at h ⊢
  cases x <;> dsimp only at h ⊢ <;> try exact h
  · exact h.mono (fun v q => hr _ q)
  · obtain ⟨ln, as', R1, e, g, q⟩ := h
    exact ⟨ln, as', R1, e, g, fun p y' hp hy => hr _ (q p y' hp hy)⟩

section
variable {ft : FileType} {pr : Pr} (H : PrOK ft pr)
include H

theorem body_arg {x : Expr} {f : Nat} {st : St} (hft : ft ≠ .module) (h : OkArg x) (hfo : Fo x) (hc : Clean st) :
    Adds st (exprBody ft pr f x 0 st) (EP true (line st) (fun as => Gen as (.n .argument) (OE (fun y => RQ ft x y 0 st (exprBody ft pr f x 0 st))))) := by
  cases h with
  | plain _ h =>
    exact (body_ok (ft := ft) (f := f) (o := 0) H hft h hfo (by omega) hc (dep_true _ _)).mono (fun _ q => q.ep (fun as g => g_arg (fits_any (Nat.zero_le 2) h g)))
  | named n p lb y hn hname hy =>
    refine (p_assign (f := f) (P1 := fun X as => as = [W (line X) K.ident n.name] ∧ ∀ n', IdAt (line X) n.name n' → RQ ft (.ident n) (.ident n') 1 X (pr (.ident n) 1 X))
      (P2 := fun Y as => Gen as (.n (.any 2)) (OE (fun z => RQ ft y z 2 Y (pr y 2 Y)))) H (by decide) hc (dep_true _ _) (fun st1 hc1 _ => YP_name H hn hname hc1)
      (fun st1 hc1 hd => H.any hy (fo_assign hfo).2 (by omega) hc1 hd)).mono (fun _ q => q.ep ?_)
    rintro _ ⟨_, as2, k, X, Y, rfl, ⟨rfl, q1⟩, q2, q3, q4⟩
    exact g_argNamed q2 (by rintro _ y' p' ⟨n', rfl, hn'⟩ hy'; exact q4 _ _ _ (q1 n' hn') hy')
  | star p x hx =>
    refine (p_star (f := f) (P := fun X as => Gen as (.n (.any 2)) (OE (fun z => RQ ft x z 14 X (pr x 14 X)))) (b := true) (.inl rfl) (Nat.zero_le _) hx.isNil hc
      (fun st1 hc1 _ => (H.ok x 14 true st1 hx (fo_unary hfo) (by omega) hc1 (dep_true _ _)).mono (fun _ q => q.mono (fun _ g => fits14_any hx g)))).mono ?_
    rintro s ⟨q1, as, X, q2, q3, q4, q5⟩
    exact ⟨q1, _, q2, g_argStar q3 (fun p' x' hp hx' => q5 x' p' hp hx')⟩
  | starStar p x hx =>
    refine (p_star (f := f) (P := fun X as => Gen as (.n (.any 2)) (OE (fun z => RQ ft x z 14 X (pr x 14 X)))) (b := true) (.inr rfl) (Nat.zero_le _) hx.isNil hc
      (fun st1 hc1 _ => (H.ok x 14 true st1 hx (fo_unary hfo) (by omega) hc1 (dep_true _ _)).mono (fun _ q => q.mono (fun _ g => fits14_any hx g)))).mono ?_
    rintro s ⟨q1, as, X, q2, q3, q4, q5⟩
    exact ⟨q1, _, q2, g_argStarStar q3 (fun p' x' hp hx' => q5 x' p' hp hx')⟩

omit H in
theorem paramG_of {ty : Bool} {R : Expr → Prop} {as} (h : Gen as (.n .parameter) (OE R)) : Gen as (.n (if ty then .parameterType else .parameter)) (OE R) := by
  cases ty
  · exact h
  · exact g_paramT h

theorem body_param {ty : Bool} {x : Expr} {f : Nat} {b : Bool} {st : St} (h : OkParam ty x) (hfo : Fo x) (hc : Clean st) (hd : Dep b st x) :
    Adds st (exprBody ft pr f x 0 st) (EP b (line st) (fun as => Gen as (.n (if ty then .parameterType else .parameter)) (OE (fun y => RQ ft x y 0 st (exprBody ft pr f x 0 st))))) := by
  cases h with
  | plain _ n hn hname => exact Adds.emit0 hc ⟨(name_text hname).2, _, t_name hname, paramG_of (g_param (fun n' h => r_ident hc h.name h.comm (name_nl hname) h.pos))⟩
  | default _ n p lb y hn hname hy =>
    refine (p_assign (f := f) (P1 := fun X as => as = [W (line X) K.ident n.name] ∧ ∀ n', IdAt (line X) n.name n' → RQ ft (.ident n) (.ident n') 1 X (pr (.ident n) 1 X))
      (P2 := fun Y as => Gen as (.n (.any 2)) (OE (fun z => RQ ft y z 2 Y (pr y 2 Y)))) H (by decide) hc hd (fun st1 hc1 _ => YP_name H hn hname hc1)
      (fun st1 hc1 hd => H.any hy (fo_assign hfo).2 (by omega) hc1 hd)).mono (fun _ q => q.ep ?_)
    rintro _ ⟨_, as2, k, X, Y, rfl, ⟨rfl, q1⟩, q2, q3, q4⟩
    exact paramG_of (g_paramDefault q2 (by rintro _ y' p' ⟨n', rfl, hn'⟩ hy'; exact q4 _ _ _ (q1 n' hn') hy'))
  | bare _ p =>
    have hb : exprBody ft pr f (.unary {} p b!"*" .nil) 0 st = emit b!"*" st := by
      unfold exprBody
      dsimp only
      rw [withParen_no (p := precUnary) (Nat.zero_le _)]
      rfl
    rw [hb]
    exact Adds.emit0 hc ⟨EndOK.single (by decide), [W (line st) 42 b!"*"], fun c hc => Lx.tok b _ _ _ _ (tok_star (follow_plain hc).1 (follow_plain hc).2.1) (by decide),
      paramG_of (g_paramBare (fun p' hp => r_bareStar (Nat.zero_le _) hc (by decide) (by decide) hp))⟩
  | star _ p n hn hname =>
    refine (p_star (f := f) (P := fun X as => as = [W (line X) K.ident n.name] ∧ ∀ n', IdAt (line X) n.name n' → RQ ft (.ident n) (.ident n') 14 X (pr (.ident n) 14 X)) (b := b) (.inl rfl) (Nat.zero_le _) rfl hc
      (fun st1 hc1 _ => YP_name H hn hname hc1)).mono ?_
    rintro s ⟨q1, as, X, q2, ⟨rfl, q3⟩, q4, q5⟩
    exact ⟨q1, _, q2, paramG_of (g_paramStar (fun p' n' hp hn' => q5 _ p' hp (q3 n' hn')))⟩
  | starStar _ p n hn hname =>
    refine (p_star (f := f) (P := fun X as => as = [W (line X) K.ident n.name] ∧ ∀ n', IdAt (line X) n.name n' → RQ ft (.ident n) (.ident n') 14 X (pr (.ident n) 14 X)) (b := b) (.inr rfl) (Nat.zero_le _) rfl hc
      (fun st1 hc1 _ => YP_name H hn hname hc1)).mono ?_
    rintro s ⟨q1, as, X, q2, ⟨rfl, q3⟩, q4, q5⟩
    exact ⟨q1, _, q2, paramG_of (g_paramStarStar (fun p' n' hp hn' => q5 _ p' hp (q3 n' hn')))⟩
  | typed n t hn hname ht =>
    refine (body_typed (f := f) (o := 0) H hn hname ht (fo_typed hfo) hc hd).mono (fun _ q => q.ep ?_)
    rintro _ ⟨l2, as', rfl, q⟩
    exact g_typed q (by rintro _ ⟨n', t', rfl, hn', ht'⟩; exact ht' n' hn')
  | typedDefault n t p lb y hn hname ht hy =>
    refine (p_assign (f := f) (P1 := fun X as => TypedG ft n t 1 X (pr (.typedIdent {} n t) 1 X) as) (P2 := fun Y as => Gen as (.n (.any 2)) (OE (fun z => RQ ft y z 2 Y (pr y 2 Y)))) H (by decide) hc hd
      (fun st1 hc1 hd => H.typed n t 1 b st1 hn hname ht (fo_typed (fo_assign hfo).1) hc1 hd) (fun st1 hc1 hd => H.any hy (fo_assign hfo).2 (by omega) hc1 hd)).mono (fun _ q => q.ep ?_)
    rintro _ ⟨_, as2, k, X, Y, rfl, ⟨l2, as', rfl, q1⟩, q2, q3, q4⟩
    exact g_typedDefault q1 q2 (by rintro _ y' p' ⟨n', t', rfl, hn', ht'⟩ hy'; exact q4 _ _ _ (ht' n' hn') hy')
  | typedStar p n t hn hname ht =>
    refine (p_star (f := f) (P := fun X as => TypedG ft n t 14 X (pr (.typedIdent {} n t) 14 X) as) (b := b) (.inl rfl) (Nat.zero_le _) rfl hc
      (fun st1 hc1 he => H.typed n t 14 b st1 hn hname ht (fo_typed (fo_unary hfo)) hc1 (dep_sub hd he (fun h => h) (fun h => h)))).mono ?_
    rintro s ⟨q1, _, X, q2, ⟨l2, as', rfl, q3⟩, q4, q5⟩
    exact ⟨q1, _, q2, g_typedStar q3 (by rintro p' _ hp ⟨n', t', rfl, hn', ht'⟩; exact q5 _ p' hp (ht' n' hn'))⟩
  | typedStarStar p n t hn hname ht =>
    refine (p_star (f := f) (P := fun X as => TypedG ft n t 14 X (pr (.typedIdent {} n t) 14 X) as) (b := b) (.inr rfl) (Nat.zero_le _) rfl hc
      (fun st1 hc1 he => H.typed n t 14 b st1 hn hname ht (fo_typed (fo_unary hfo)) hc1 (dep_sub hd he (fun h => h) (fun h => h)))).mono ?_
    rintro s ⟨q1, _, X, q2, ⟨l2, as', rfl, q3⟩, q4, q5⟩
    exact ⟨q1, _, q2, g_typedStarStar q3 (by rintro p' _ hp ⟨n', t', rfl, hn', ht'⟩; exact q5 _ p' hp (ht' n' hn'))⟩

theorem body_kv {x : Expr} {f : Nat} {st : St} (h : OkKV x) (hfo : Fo x) (hc : Clean st) :
    Adds st (exprBody ft pr f x 0 st) (EP true (line st) (fun as => Gen as (.n .keyvalue) (OE (fun y => RQ ft x y 0 st (exprBody ft pr f x 0 st))))) := by
  cases h with
  | kv k p v hk hv =>
    obtain ⟨f1, f2⟩ := fo_kv hfo
    show Adds st (pr v 0 (emit b!": " (pr k 0 st))) (EP true (line st) (fun as => Gen as (.n .keyvalue) (OE (fun y => RQ ft (.keyValue {} k p v) y 0 st (pr v 0 (emit b!": " (pr k 0 st)))))))
    have hl : line (emit b!": " (pr k 0 st)) = line (pr k 0 st) := line_emit0 (by decide) _
    have h1 := (lined (H.any hk f1 (Nat.zero_le 2) hc (dep_true _ _))).emit (t := b!": ") (R := fun s => ∃ s1, s = s1 ++ b!": " ∧ Y true (line st) (.any 2) (OE (fun y => RQ ft k y 0 st (pr k 0 st))) s1 ∧ line (pr k 0 st) = line st + nl s1) (fun s q => ⟨s, rfl, q⟩)
    refine h1.trans (fun hc' => H.any hv f2 (Nat.zero_le 2) hc' (dep_true _ _)) ?_
    rintro _ s2 ⟨s1, rfl, ⟨_, _, as1, q3, q4⟩, e⟩ ⟨_, r2, as2, r3, r4⟩
    rw [hl, e] at r3
    refine ⟨r2.app, _, fun c hc => ?_, g_kv (ln := line st + nl s1) q4 r4 (fun x' y' p' hx' hy' => r_kv hc hx' rfl hy')⟩
    have := Lx.appT (s2 := 58 :: 32 :: s2) (c := c) q3 follow58 (lx_colon (Lx.sp (r3 c hc)))
    simpa using this

theorem body_clause {x : Expr} {f : Nat} {st : St} (h : OkClause x) (hfo : Fo x) (hc : Clean st) :
    Adds st (exprBody ft pr f x 0 st) (EP true (line st) (ClauseG (fun it y => RQ ft it.1 y 0 it.2 (exprBody ft pr f it.1 0 it.2)) (x, st))) := by
  cases h with
  | for_ p v i x hv hx hcx =>
    obtain ⟨f1, f2⟩ := fo_forClause hfo
    show Adds st (pr x 0 (emit b!" in " (pr v 0 (emit b!"for " st)))) _
    have l0 : line (emit b!"for " st) = line st := line_emit0 (by decide) _
    have l1 : line (emit b!" in " (pr v 0 (emit b!"for " st))) = line (pr v 0 (emit b!"for " st)) := line_emit0 (by decide) _
    have h1 := (Adds.emit0 (R := (· = b!"for ")) hc rfl).trans (fun hc' => lined (H.vars v true _ hv f1 hc' (dep_true _ _))) (R := fun s => ∃ s1, s = b!"for " ++ s1 ∧ Y true (line st) .loopVars (OE (fun y => RQ ft v y 0 (emit b!"for " st) (pr v 0 (emit b!"for " st)))) s1 ∧
        line (pr v 0 (emit b!"for " st)) = line st + nl s1)
      (by rintro _ s2 rfl ⟨q, e⟩; rw [l0] at q e; exact ⟨s2, rfl, q, e⟩)
    have h2 := h1.emit (t := b!" in ") (R := fun s => ∃ s1, s = b!"for " ++ s1 ++ b!" in " ∧ Y true (line st) .loopVars (OE (fun y => RQ ft v y 0 (emit b!"for " st) (pr v 0 (emit b!"for " st)))) s1 ∧
        line (pr v 0 (emit b!"for " st)) = line st + nl s1) (by rintro _ ⟨s1, rfl, q⟩; exact ⟨s1, rfl, q⟩)
    refine h2.trans (fun hc' => H.ok x 0 true _ hx f2 (by omega) hc' (dep_true _ _)) ?_
    rintro _ s2 ⟨s1, rfl, ⟨_, _, as1, q3, q4⟩, e0⟩ ⟨_, r2, as2, r3, r4⟩
    rw [l1, e0] at r3
    have e : b!"for " ++ s1 ++ b!" in " ++ s2 = b!"for" ++ 32 :: (s1 ++ 32 :: (b!"in" ++ 32 :: s2)) := by simp
    rw [e]
    refine ⟨((((r2.cons).app).cons).app.cons).app, _, fun c hc => ?_, g_forClause (ln := line st) (l2 := line st + nl s1) q4 (fits0 hcx hx r4) (fun v' x' p' i' hp hv' hx' => r_forClause hc hp rfl hv' rfl hx')⟩
    exact lx_kw (k := K.for_) ⟨⟨_, _, rfl, by decide, by decide⟩, by decide, by decide⟩ follow32 (Lx.sp (Lx.appT q3 follow32 (Lx.sp
      (lx_kw (k := K.in_) ⟨⟨_, _, rfl, by decide, by decide⟩, by decide, by decide⟩ follow32 (Lx.sp (r3 c hc))))))
  | if_ p x hx hcx =>
    show Adds st (pr x 0 (emit b!"if " st)) _
    have l0 : line (emit b!"if " st) = line st := line_emit0 (by decide) _
    refine (Adds.emit0 (R := (· = b!"if ")) hc rfl).trans (fun hc' => H.ok x 0 true _ hx (fo_ifClause hfo) (by omega) hc' (dep_true _ _)) ?_
    rintro _ s2 rfl ⟨q1, q2, as, q3, q4⟩
    rw [l0] at q3
    refine ⟨q2.app, _, fun c hc => lx_kw (t := b!"if") (k := K.if_) ⟨⟨_, _, rfl, by decide, by decide⟩, by decide, by decide⟩ follow32 (Lx.sp (q3 c hc)), line st, as, _, rfl, fits0 hcx hx q4, ?_⟩
    intro p' y' hp hy'
    exact r_ifClause hc hp rfl hy'

theorem body_vars {x : Expr} {f : Nat} {b : Bool} {st : St} (hft : ft ≠ .module) (h : OkVars x) (hfo : Fo x) (hc : Clean st) (hd : Dep b st x) :
    Adds st (exprBody ft pr f x 0 st) (Y b (line st) .loopVars (OE (fun y => RQ ft x y 0 st (exprBody ft pr f x 0 st)))) := by
  cases h with
  | one _ h hp => exact (body_ok (ft := ft) (f := f) (o := 0) H hft h hfo (by omega) hc hd).mono (fun _ q => q.mono (fun as g => g_var (fits_var hp g)))
  | tuple s x y l e fc fm he hl hp => exact p_bareVars H he hl (fo_tuple hfo).2 hp hc hd

theorem body_expr {x : Expr} {f o : Nat} {b : Bool} {st : St} (hft : ft ≠ .module) (h : OkExpr x) (hfo : Fo x) (ho : o ≤ 2) (hc : Clean st) (hd : Dep b st x) :
    Adds st (exprBody ft pr f x o st) (Y b (line st) .expr (OE (fun y => RQ ft x y o st (exprBody ft pr f x o st)))) := by
  cases h with
  | one _ h => exact (body_ok (ft := ft) (f := f) (o := o) H hft h hfo (by omega) hc hd).mono (fun _ q => q.mono (fun as g => g_expr (fits_any ho h g)))
  | tuple s x y l e fc fm he hl hp => exact p_bareExpr H he hl (fo_tuple hfo).2 hp hc hd

theorem body_load {x : Expr} {f : Nat} {st : St} {pr' : Pr} (hpr : pr' x 0 st = exprBody ft pr f x 0 st) (h : OkLoadArg x) (hc : Clean st) : Adds st (pr' x 0 st) (El true (line st) (LoadIt pr') (x, st)) := by
  cases h with
  | string n hn ht =>
    rw [hpr]
    refine string_adds' ht hc (fun s hp hs => ⟨(good_text hs).2, _, t_str hs, hc, s, hp, ?_, rfl⟩)
    show pr' (.string n) 0 st = _
    rw [hpr]
    unfold exprBody
    simp only [hp]
  | named n m hn hname hm ht =>
    have hb : pr' (.assign {} (.ident n) {} b!"=" false (.string m)) 0 st = { pr (.string m) 2 (emit b!" " (emit b!" =" (pr (.ident n) 1 st))) with margin := st.margin } := hpr
    have h1 := (H.ident n 1 st hn hc).emit (t := b!" =") (R := fun s => s = n.name ++ b!" =" ∧ pr (.ident n) 1 st = emit n.name st) (by rintro _ ⟨rfl, e⟩; exact ⟨rfl, e⟩)
    have h2 := h1.emit (t := b!" ") (R := fun s => s = n.name ++ b!" = " ∧ pr (.ident n) 1 st = emit n.name st) (by rintro _ ⟨rfl, e⟩; exact ⟨by simp, e⟩)
    have h3 := h2.trans (fun hc' => H.str m 2 _ hm (.inl ht) hc') (R := El true (line st) (LoadIt pr') (.assign {} (.ident n) {} b!"=" false (.string m), st)) (by
      rintro _ s2 ⟨rfl, e⟩ ⟨q1, q2, q3⟩
      refine ⟨(good_text q2).2.app, [W (line st) K.ident n.name, W (line st) 61 b!"=", WS (line st) s2 m.value m.triple], fun c hc => ?_, hc, s2, q1, ?_, rfl⟩
      · have hlx : Lx true (line st) (61 :: 32 :: s2) c [W (line st) 61 b!"=", WS (line st) s2 m.value m.triple] :=
          Lx.app true (line st) b!"=" (32 :: s2) c _ _ (lx_op (op := b!"=") (by decide) (.inl rfl)) (Lx.sp (t_str q2 c hc))
        have := Lx.appT (s2 := 32 :: 61 :: 32 :: s2) (c := c) (t_name (b := true) (ln := line st) hname) follow32 (Lx.sp (hlx.at (by rw [name_nl hname]; rfl)))
        simpa using this
      · show pr' (.assign {} (.ident n) {} b!"=" false (.string m)) 0 st = _
        rw [hb, q3, e]
        rfl)
    rw [hb]
    exact h3

end

/-- the printer of expressions -/
theorem prOK {ft : FileType} (hft : ft ≠ .module) : ∀ f, PrOK ft (expr ft f) := by
  intro f
  induction f with
  | zero =>
    have key : ∀ (st : St) (P : Bytes → Prop), Clean st → Adds st { st with bad := true } P := fun st P hc => Adds.bad hc rfl
    exact ⟨keep_expr ft 0, fun _ _ st _ hc => key st _ hc, fun _ _ st _ _ hc => key st _ hc, fun _ _ _ st _ _ _ hc _ => key st _ hc, fun _ st _ hc => key st _ hc,
      fun _ st _ _ hc => key st _ hc, fun _ _ _ _ st _ _ _ _ hc _ => key st _ hc, fun _ _ _ st _ _ hc _ => key st _ hc, fun _ st _ _ hc => key st _ hc,
      fun _ st _ _ hc => key st _ hc, fun _ _ st _ _ hc _ => key st _ hc, fun _ _ _ st _ _ _ hc _ => key st _ hc⟩
  | succ f H =>
    refine ⟨keep_expr ft (f + 1), ?_, ?_, ?_, ?_, ?_, ?_, ?_, ?_, ?_, ?_, ?_⟩
    · intro n o st hn hc
      rw [expr_body (e := .ident n) hc hn]
      exact Adds.emit0 hc ⟨rfl, rfl⟩
    · intro n o st hn ht hc
      rw [expr_body (e := .string n) hc hn]
      refine string_adds' ht hc (fun s hp hs => ⟨hp, hs, ?_⟩)
      unfold exprBody
      simp only [hp]
    · intro e o b st he hf ho hc hd
      rw [expr_body hc he.comments]
      exact body_ok H hft he hf ho hc hd
    · intro x st h hc
      refine body_load H (expr_body hc ?_) h hc
      cases h <;> first | rfl | assumption
    · intro x st h hf hc
      have e := expr_body (ft := ft) (f := f) (o := 0) hc (okArg_comments h)
      show Adds st (expr ft (f + 1) x 0 st) (EP true (line st) (fun as => Gen as (.n .argument) (OE (fun y => RQ ft x y 0 st (expr ft (f + 1) x 0 st)))))
      rw [e]
      exact body_arg H hft h hf hc
    · intro n t o b st hn hname ht hf hc hd
      rw [expr_body (e := .typedIdent {} n t) hc rfl]
      exact body_typed H hn hname ht hf hc hd
    · intro ty x b st h hf hc hd
      have e := expr_body (ft := ft) (f := f) (o := 0) (e := x) hc (by cases h <;> first | rfl | assumption)
      show Adds st (expr ft (f + 1) x 0 st) (EP b (line st) (fun as => Gen as (.n (if ty then .parameterType else .parameter)) (OE (fun y => RQ ft x y 0 st (expr ft (f + 1) x 0 st)))))
      rw [e]
      exact body_param H h hf hc hd
    · intro x st h hf hc
      have e := expr_body (ft := ft) (f := f) (o := 0) hc (okKV_comments h)
      show Adds st (expr ft (f + 1) x 0 st) (EP true (line st) (fun as => Gen as (.n .keyvalue) (OE (fun y => RQ ft x y 0 st (expr ft (f + 1) x 0 st)))))
      rw [e]
      exact body_kv H h hf hc
    · intro x st h hf hc
      have e := expr_body (ft := ft) (f := f) (o := 0) (e := x) hc (by cases h <;> rfl)
      rw [e]
      refine (body_clause H h hf hc).mono (fun s q => ⟨q.1, q.2.choose, q.2.choose_spec.1, clauseG_mono q.2.choose_spec.2 (fun y hy => ?_)⟩)
      show RQ ft x y 0 st (expr ft (f + 1) x 0 st)
      rw [e]
      exact hy
    · intro x b st h hf hc hd
      rw [expr_body hc (by cases h <;> first | rfl | (rename_i h _; exact h.comments))]
      exact body_vars H hft h hf hc hd
    · intro x o b st h hf ho hc hd
      rw [expr_body hc (by cases h <;> first | rfl | (rename_i h; exact h.comments))]
      exact body_expr H hft h hf ho hc hd

end Verif.Again
