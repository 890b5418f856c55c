import Verif.Proofs.Again.PrintD
/-
Function definitions, and the printer of statements.
-/
namespace Verif.Again
open Verif Verif.Syntax Verif.Lexer Verif.Print Verif.Grammar Verif.Parser Verif.Round

theorem okParam_comments {ty : Bool} {x : Expr} (h : OkParam ty x) : x.comments = {} := by
  cases h <;> first | rfl | assumption

section
variable {ft : FileType} {pr : Pr} (H : PrOK ft pr) (hS : PrS ft pr)
include H hS

theorem p_def {p name ps body cp fc fm ty st f} (hft : ft ≠ .module) (hname : Name name) (hps : ∀ a ∈ ps, OkParam true a) (hty : ty.isNil = false → Ok ty) (hl : body ≠ []) (hok : ∀ s ∈ body, OkStmt s)
    (hfo : Fo (.defS {} p name ps body cp fc fm ty)) (ht : tupleTight (.defS {} p name ps body cp fc fm ty) = true) (hc : Clean st) (hd : st.depth = 0) :
    AddsN st (exprBody ft pr f (.defS {} p name ps body cp fc fm ty) 0 st)
      (Ln st.margin (line st) (fun as => Gen as (.n (.blockStmt false)) (OE (fun y => RQ ft (.defS {} p name ps body cp fc fm ty) y 0 st (exprBody ft pr f (.defS {} p name ps body cp fc fm ty) 0 st) ∧
        isDef y = true)))) := by
  obtain ⟨f1, f2, f3⟩ := fo_def hfo
  unfold tupleTight at ht
  simp only [Bool.and_eq_true] at ht
  have hb : exprBody ft pr f (.defS {} p name ps body cp fc fm ty) 0 st = nestedStatements ft pr body (emit b!":" (if ty.isNil then seq ft pr b!"(" b!")" p ps none .def_ fc fm (emit name (emit b!"def " st)) else
    pr ty 0 (emit b!" -> " (seq ft pr b!"(" b!")" p ps none .def_ fc fm (emit name (emit b!"def " st)))))) := rfl
  rw [hb]
  have hnn := name_nl hname
  have k1 : Keep st (seq ft pr b!"(" b!")" p ps none .def_ fc fm (emit name (emit b!"def " st))) := keep_seq H.keep _ _ _ _ _ _ _ _ (emit name (emit b!"def " st))
  have l0 : line (emit name (emit b!"def " st)) = line st := (line_emit0 hnn _).trans (line_emit0 (by decide) _)
  have h0 := (Adds.emit0 (t := b!"def ") (R := (· = b!"def ")) hc rfl).emit (t := name) (R := (· = b!"def " ++ name)) (by rintro _ rfl; rfl)
  have h1 := h0.trans (fun hc' => seq_spec (ft := ft) (start := p) (e := none) (fc := fc) (fm := fm) (elem := ParamG ft pr true) (m := .def_) (o := 40) (c := 41) (by decide) (.inl rfl) (.inl rfl)
    (fun x hx => (hps x hx).isNil) (by rintro _ ⟨⟩) (fun x hx st hc => H.param true x true st (hps x hx) (f1 x hx) hc (dep_true _ _)) H.keep _ hc')
    (R := fun s => YP false (line st) (fun as => Gen as (.n .defHeader) (SDef (line st) name (RI ft pr) (items ft pr b!"(" p ps none .def_ fc fm (emit name (emit b!"def " st))) (· = .nil))) s) (by
      rintro _ _ rfl ⟨s1, as, rfl, htx, hs, hln⟩
      rw [l0] at htx hln
      have e : b!"def " ++ name ++ 40 :: (s1 ++ [41]) = b!"def" ++ 32 :: (name ++ 40 :: (s1 ++ [41])) := by simp
      rw [e]
      obtain ⟨e1, e2⟩ := group_ends (s := s1) (o := 40) (cl := 41) (.inl rfl) (.inl rfl)
      refine ⟨StartOK.app ⟨100, _, rfl, by unfold Start; decide⟩, ((e2.app).cons).app, _, fun c hc => ?_, g_header (l2 := line st) (l3 := line st) (l4 := line st + nl s1) hs⟩
      exact lx_kw (k := K.def_) ⟨⟨_, _, rfl, by decide, by decide⟩, by decide, by decide⟩ follow32 (Lx.sp (Lx.appT (t_name hname) follow40 (by rw [hnn]; exact lx_group (.inl rfl) (.inl rfl) htx c hc))))
  generalize hst1 : seq ft pr b!"(" b!")" p ps none .def_ fc fm (emit name (emit b!"def " st)) = st1 at h1 k1 ⊢
  have k2 : Keep st (if ty.isNil then st1 else pr ty 0 (emit b!" -> " st1)) := by
    cases ty.isNil
    · exact k1.trans (H.keep ty 0 (emit b!" -> " st1))
    · exact k1
  have h2 : Adds st (if ty.isNil then st1 else pr ty 0 (emit b!" -> " st1)) (YP false (line st) (fun as => Gen as (.n .defHeaderTypeOpt)
      (SDef (line st) name (RI ft pr) (items ft pr b!"(" p ps none .def_ fc fm (emit name (emit b!"def " st)))
        (fun ty' => (ty = .nil ∧ ty' = .nil ∧ emit b!":" (if ty.isNil then st1 else pr ty 0 (emit b!" -> " st1)) = emit b!":" st1) ∨
          (ty.isNil = false ∧ RQ ft ty ty' 0 (emit b!" -> " st1) (pr ty 0 (emit b!" -> " st1)) ∧
            emit b!":" (if ty.isNil then st1 else pr ty 0 (emit b!" -> " st1)) = emit b!":" (pr ty 0 (emit b!" -> " st1))))))) := by
    cases hn : ty.isNil with
    | true =>
      have hnn := isNil_eq hn
      refine h1.mono (fun _ q => q.mono (fun _ g => (g_headerType0 g).mono ?_))
      rintro v ⟨p', ps', b', cp', fc', fm', ty', e, e2, e3, e4⟩
      exact ⟨p', ps', b', cp', fc', fm', ty', e, e2, e3, .inl ⟨hnn, e4, rfl⟩⟩
    | false =>
      simp only [Bool.false_eq_true, if_false]
      have l1 : line (emit b!" -> " st1) = line st1 := line_emit0 (by decide) _
      have h3 := (lined h1).emit (t := b!" -> ") (R := fun s => ∃ s0, s = s0 ++ b!" -> " ∧ YP false (line st) (fun as => Gen as (.n .defHeader)
        (SDef (line st) name (RI ft pr) (items ft pr b!"(" p ps none .def_ fc fm (emit name (emit b!"def " st))) (· = .nil))) s0 ∧ line st1 = line st + nl s0) (fun s q => ⟨s, rfl, q⟩)
      refine h3.trans (fun hc' => H.any (b := false) (hty hn) f3 (Nat.zero_le 2) hc' (fun _ => .inl ⟨k1.1.trans hd, ht.1⟩)) ?_
      rintro _ s2 ⟨s0, rfl, ⟨q1, q2, as1, q3, q4⟩, hln⟩ ⟨_, r2, as2, r3, r4⟩
      rw [l1, hln] at r3
      have e : s0 ++ b!" -> " ++ s2 = s0 ++ 32 :: (b!"->" ++ 32 :: s2) := by simp
      rw [e]
      refine ⟨q1.app, ((r2.cons).app.cons).app, _, fun c hc => Lx.appT q3 follow32 (Lx.sp (Lx.pre0 (k := K.arrow) (tok_arrow _) (by decide) (by decide) (Lx.sp (r3 c hc)))),
        (g_headerType1 (l2 := line st + nl s0) q4 r4).mono ?_⟩
      rintro v ⟨p', ps', b', cp', fc', fm', ty', e, e2, e3, e4⟩
      exact ⟨p', ps', b', cp', fc', fm', ty', e, e2, e3, .inr ⟨trivial, e4, trivial⟩⟩
  generalize hst2 : (if ty.isNil then st1 else pr ty 0 (emit b!" -> " st1)) = st2 at h2 k2 ⊢
  have h4 := (lined h2).emit (t := b!":") (R := YP false (line st) (fun as => ∃ as1 l2, as = as1 ++ [W l2 58 b!":"] ∧ Gen as1 (.n .defHeaderTypeOpt) _)) (by
    rintro s ⟨⟨q1, q2, as1, q3, q4⟩, hln⟩
    exact ⟨q1.app, EndOK.app (EndOK.single (by decide)), _, fun c hc => Lx.appT q3 follow58 (lx_colon (Lx.nil false _ c)), as1, line st + nl s, rfl, q4⟩)
  obtain ⟨h5, _⟩ := nested_ln (ft := ft) H hS h4 (k2.1.trans hd) hl hok f2 (tupleTightL_mem ht.2)
  rw [show (emit b!":" st2).margin = st.margin from k2.2] at h5
  refine h5.mono (fun t q => q.mono ?_)
  rintro _ _ ⟨_, a2, rfl, ⟨as1, l2, rfl, g1⟩, g3⟩
  refine (g_def (l3 := l2) g1 g3 (fun p' cp' ps' body' fc' fm' ty' hp hI hty' hb' => ⟨?_, rfl⟩)).cast (by simp)
  exact r_def hft hc hnn hp (fun x hx => ⟨(hps x hx).isNil, okParam_comments (hps x hx)⟩) rfl hI hst1.symm hty' hl (fun s hs => OkStmt.plain (hok s hs)) hb'

omit H hS in
theorem same_def {e y : Expr} (h : Same e y) (hy : isDef y = true) : isDef e = true := by
  cases h <;> first | rfl | cases hy

omit H hS in
theorem same_block {e y : Expr} (h : Same e y) : isCommentBlock y = false := by
  cases h <;> rfl

omit H hS in
theorem okExpr_def {x : Expr} (h : OkExpr x) : isDef x = false := by
  cases h with
  | one _ h => cases h <;> rfl
  | tuple => rfl

theorem body_stmt {s : Expr} {st : St} {f : Nat} (hft : ft ≠ .module) (h : OkStmt s) (hfo : Fo s) (ht : tupleTight s = true) (hc : Clean st) (hd : st.depth = 0) :
    AddsN st (exprBody ft pr f s 0 st) (StB st.margin (line st) (fun y => RQ ft s y 0 st (exprBody ft pr f s 0 st) ∧ isDef y = isDef s)) := by
  have key : ∀ {y r}, isDef s = false → RQ ft s y 0 st r → RQ ft s y 0 st r ∧ isDef y = isDef s := by
    intro y r h0 hq
    refine ⟨hq, ?_⟩
    rw [h0]
    cases hy : isDef y with
    | false => rfl
    | true => rw [same_def hq.same hy] at h0; cases h0
  have simple : ∀ {t : Bytes} {r : St}, isDef s = false → Y false (line st) .smallStmt (OE (fun y => RQ ft s y 0 st r)) t → StB st.margin (line st) (fun y => RQ ft s y 0 st r ∧ isDef y = isDef s) t :=
    fun h0 q => .inl (q.mono (fun _ g => g.mono (fun _ w => key h0 w)))
  have block : ∀ {t : Bytes} {r : St}, isDef s = false → Ln st.margin (line st) (fun as => Gen as (.n (.blockStmt false)) (OE (fun y => RQ ft s y 0 st r))) t →
      StB st.margin (line st) (fun y => RQ ft s y 0 st r ∧ isDef y = isDef s) t :=
    fun h0 q => .inr (q.mono (fun _ _ g => g.mono (fun _ w => key h0 w)))
  cases h with
  | expr _ hx => exact ((body_expr H hft hx hfo (Nat.zero_le 2) hc (fun _ => .inl ⟨hd, ht⟩)).toN).mono (fun _ q => simple (okExpr_def hx) (q.mono (fun _ g => g_smallExpr g)))
  | assign x p op lb y hop hx hy => exact ((p_assignStmt H hop hx hy hfo ht hc hd).toN).mono (fun _ q => simple rfl q)
  | aug x p op lb y hop hx hy => exact ((p_augStmt H hop hx hy hfo ht hc hd).toN).mono (fun _ q => simple rfl q)
  | return_ p x hx => exact ((p_return H hx (fo_return hfo) ht hc hd).toN).mono (fun _ q => simple rfl q)
  | branch t p hb => exact AddsN.mono (P := (· = t)) (Adds.toN (Adds.emit0 (t := t) hc rfl)) (by rintro _ rfl; exact simple rfl (p_branch hb hc))
  | def_ p name ps body cp fc fm ty h1 h2 h3 h4 h5 => exact (p_def H hS hft h1 h2 h3 h4 h5 hfo ht hc hd).mono (fun _ q => .inr q)
  | for_ p v x body h1 h2 h3 h4 => exact (p_for H hS hft h1 h2 h3 h4 hfo ht hc hd).mono (fun _ q => block rfl q)
  | if_ p x body ep els h1 h2 h3 h4 h5 => exact (p_if H hS hft h1 h2 h3 h4 h5 hfo ht hc hd).mono (fun _ q => block rfl q)

end

theorem prS {ft : FileType} (hft : ft ≠ .module) : ∀ f, PrS ft (expr ft f) := by
  intro f
  induction f with
  | zero => intro s st _ _ _ hc _; exact ⟨hc.1, fun hb => by cases hb⟩
  | succ f ih =>
    intro s st h hfo ht hc hd
    have hb := expr_body (ft := ft) (f := f) (o := 0) hc h.comments
    have := body_stmt (f := f) (prOK hft f) ih hft h hfo ht hc hd
    rw [hb]
    refine this.mono (fun t q => q.stmt ?_)
    rintro y ⟨q1, q2⟩
    refine ⟨?_, q2, same_block q1.same, ?_⟩
    · show RQ ft s y 0 st (expr ft (f + 1) s 0 st)
      rw [hb]; exact q1
    · show (expr ft (f + 1) s 0 st).comment = []
      rw [hb]; exact this.1

end Verif.Again
