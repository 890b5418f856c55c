import Verif.Proofs.Again.PrText
/-
What the printer writes for an expression is read as an expression that is printed in the same way: brackets and suffixes.
-/
namespace Verif.Again
open Verif Verif.Syntax Verif.Lexer Verif.Print Verif.Grammar Verif.Parser Verif.Round

abbrev ArgG (ft : FileType) (pr : Pr) (it : It) (as : List LTok) : Prop := Gen as (.n .argument) (OE (RI ft pr it))
abbrev KvG (ft : FileType) (pr : Pr) (it : It) (as : List LTok) : Prop := Gen as (.n .keyvalue) (OE (RI ft pr it))
abbrev ParamG (ft : FileType) (pr : Pr) (ty : Bool) (it : It) (as : List LTok) : Prop := Gen as (.n (if ty then .parameterType else .parameter)) (OE (RI ft pr it))
abbrev AnyG (ft : FileType) (pr : Pr) (it : It) (as : List LTok) : Prop := Gen as (.n (.any 2)) (OE (RI ft pr it))

/-- a typed name -/
abbrev TypedG (ft : FileType) (n : IdentN) (t : Expr) (o : Nat) (st r : St) (as : List LTok) : Prop :=
  ∃ l2 as', as = W (line st) K.ident n.name :: (W l2 58 b!":" :: as') ∧
    Gen as' (.n (.any 2)) (OE (fun t' => ∀ n', IdAt (line st) n.name n' → RQ ft (.typedIdent {} n t) (.typedIdent {} n' t') o st r))

/-- what the printer does with subexpressions -/
structure PrOK (ft : FileType) (pr : Pr) : Prop where
  keep : ∀ e o st, Keep st (pr e o st)
  ident : ∀ (n : IdentN) o st, n.comments = {} → Clean st → Adds st (pr (.ident n) o st) (fun s => s = n.name ∧ pr (.ident n) o st = emit n.name st)
  str : ∀ (n : StringN) o st, n.comments = {} → (n.token = [] ∨ Props.Quote.LexedToken n.token) → Clean st →
    Adds st (pr (.string n) o st) (fun s => Quote.printString n.token n.value n.triple = some s ∧ Props.Quote.GoodLiteral s n.value n.triple ∧ pr (.string n) o st = emit s st)
  ok : ∀ e o b st, Ok e → Fo e → o ≤ 14 → Clean st → Dep b st e → Adds st (pr e o st) (Y b (line st) (fits e o) (OE (fun y => RQ ft e y o st (pr e o st))))
  load : ∀ x st, OkLoadArg x → Clean st → Adds st (pr x 0 st) (El true (line st) (LoadIt pr) (x, st))
  arg : ∀ x st, OkArg x → Fo x → Clean st → Adds st (pr x 0 st) (El true (line st) (ArgG ft pr) (x, st))
  typed : ∀ n t o b st, n.comments = {} → Name n.name → Ok t → Fo t → Clean st → Dep b st (.typedIdent {} n t) →
    Adds st (pr (.typedIdent {} n t) o st) (YP b (line st) (TypedG ft n t o st (pr (.typedIdent {} n t) o st)))
  param : ∀ ty x b st, OkParam ty x → Fo x → Clean st → Dep b st x → Adds st (pr x 0 st) (El b (line st) (ParamG ft pr ty) (x, st))
  kv : ∀ x st, OkKV x → Fo x → Clean st → Adds st (pr x 0 st) (El true (line st) (KvG ft pr) (x, st))
  clause : ∀ x st, OkClause x → Fo x → Clean st → Adds st (pr x 0 st) (El true (line st) (ClauseG (RI ft pr)) (x, st))
  vars : ∀ x b st, OkVars x → Fo x → Clean st → Dep b st x → Adds st (pr x 0 st) (Y b (line st) .loopVars (OE (fun y => RQ ft x y 0 st (pr x 0 st))))
  expr : ∀ x o b st, OkExpr x → Fo x → o ≤ 2 → Clean st → Dep b st x → Adds st (pr x o st) (Y b (line st) .expr (OE (fun y => RQ ft x y o st (pr x o st))))

theorem okArg_comments {e : Expr} (h : OkArg e) : e.comments = {} := by
  cases h <;> first | rfl | skip
  rename_i h; exact h.comments
theorem okKV_comments {e : Expr} (h : OkKV e) : e.comments = {} := by cases h; rfl

/-- an operand after a star -/
theorem fits14_any {as e R} (he : Ok e) (d : Gen as (.n (fits e 14)) R) : Gen as (.n (.any 2)) R := by
  cases hc : isCond e with
  | false => exact test_any2 (test_up (by omega) (show 2 ≤ 13 by omega) (by omega) (primExpr_up (fits14 hc he d)))
  | true =>
    cases e <;> first | (cases hc) | skip
    exact test_any2 (o := false) d

theorem line_emit0 {t : Bytes} (h : nl t = 0) (st : St) : line (emit t st) = line st := by rw [line_emit, h]; rfl

section
variable {ft : FileType} {pr : Pr} (H : PrOK ft pr)
include H

/-! ## Subexpressions -/

theorem PrOK.any {e : Expr} {o : Nat} {b : Bool} {st : St} (he : Ok e) (hf : Fo e) (ho : o ≤ 2) (hc : Clean st) (hd : Dep b st e) :
    Adds st (pr e o st) (Y b (line st) (.any 2) (OE (fun y => RQ ft e y o st (pr e o st)))) :=
  (H.ok e o b st he hf (by omega) hc hd).mono (fun _ q => q.mono (fun _ g => fits_any ho he g))

theorem PrOK.el {e : Expr} {st : St} (he : Ok e) (hf : Fo e) (hc : Clean st) : Adds st (pr e 0 st) (El true (line st) (AnyG ft pr) (e, st)) :=
  (H.any he hf (Nat.zero_le 2) hc (dep_true _ _)).mono (fun _ ⟨_, q2, q3⟩ => ⟨q2, q3⟩)

/-- the base of a suffix -/
theorem PrOK.base {x : Expr} {b : Bool} {st : St} (he : Ok x) (hf : Fo x) (hx : isCond x = false) (hc : Clean st) (hd : Dep b st x) :
    Adds st (pr x 14 st) (fun s => Y b (line st) .primaryExpr (OE (fun y => RQ ft x y 14 st (pr x 14 st))) s ∧ line (pr x 14 st) = line st + nl s) :=
  lined ((H.ok x 14 b st he hf (by omega) hc hd).mono (fun _ q => q.mono (fun _ g => fits14 hx he g)))

/-! ## Brackets -/

theorem p_list {s l en fm o b st} (he : en.comments = {}) (hl : ∀ a ∈ l, Ok a) (hf : ∀ a ∈ l, Fo a) (hc : Clean st) :
    Adds st (seq ft pr b!"[" b!"]" s l (some en) .list false fm st)
      (Y b (line st) .primary (OE (fun y => RQ ft (.list {} s l en fm) y o st (seq ft pr b!"[" b!"]" s l (some en) .list false fm st)))) := by
  refine (seq_spec (elem := AnyG ft pr) (m := .list) (o := 91) (c := 93) (by decide) (.inr (.inl rfl)) (.inr (.inl rfl)) (fun x hx => (hl x hx).isNil) (by rintro _ ⟨⟩; exact he)
    (fun x hx st hc => H.el (hl x hx) (hf x hx) hc) H.keep st hc).mono ?_
  rintro _ ⟨s1, as, rfl, ht, hs, hln⟩
  obtain ⟨e1, e2⟩ := group_ends (s := s1) (o := 91) (cl := 93) (.inr (.inl rfl)) (.inr (.inl rfl))
  refine ⟨e1, e2, _, lx_group (.inr (.inl rfl)) (.inr (.inl rfl)) ht, g_list hs ?_⟩
  intro p e l' hp he' hI
  exact r_list he (fun x hx => ⟨(hl x hx).isNil, (hl x hx).comments⟩) hc hI hp rfl (he'.trans hln.symm)

omit H in
theorem items_ne {o start l e m fc fm st} (hn : l ≠ []) : items ft pr o start l e m fc fm st ≠ [] := by
  intro h
  have := items_map (ft := ft) (pr := pr) (o := o) (start := start) (l := l) (e := e) (m := m) (fc := fc) (fm := fm) (st := st)
  rw [h] at this
  exact hn this.symm

theorem p_set {s l en fm o b st} (he : en.comments = {}) (hn : l ≠ []) (hl : ∀ a ∈ l, Ok a) (hf : ∀ a ∈ l, Fo a) (hc : Clean st) :
    Adds st (seq ft pr b!"{" b!"}" s l (some en) .list false fm st)
      (Y b (line st) .primary (OE (fun y => RQ ft (.set {} s l en fm) y o st (seq ft pr b!"{" b!"}" s l (some en) .list false fm st)))) := by
  refine (seq_spec (elem := AnyG ft pr) (m := .list) (o := 123) (c := 125) (by decide) (.inr (.inr rfl)) (.inr (.inr rfl)) (fun x hx => (hl x hx).isNil) (by rintro _ ⟨⟩; exact he)
    (fun x hx st hc => H.el (hl x hx) (hf x hx) hc) H.keep st hc).mono ?_
  rintro _ ⟨s1, as, rfl, ht, hs, hln⟩
  obtain ⟨e1, e2⟩ := group_ends (s := s1) (o := 123) (cl := 125) (.inr (.inr rfl)) (.inr (.inr rfl))
  refine ⟨e1, e2, _, lx_group (.inr (.inr rfl)) (.inr (.inr rfl)) ht, g_set (items_ne hn) hs ?_⟩
  intro p e l' hp he' hI
  exact r_set he (fun x hx => ⟨(hl x hx).isNil, (hl x hx).comments⟩) hc hI hp rfl (he'.trans hln.symm)

theorem p_tuple {s l en fc fm o b st} (he : en.comments = {}) (hl : ∀ a ∈ l, Ok a) (hf : ∀ a ∈ l, Fo a) (hfc : fc = true → ∀ a ∈ l, isSimple a = true) (hc : Clean st) :
    Adds st (seq ft pr b!"(" b!")" s l (some en) .tuple fc fm st)
      (Y b (line st) .primary (OE (fun y => RQ ft (.tuple {} false s l en fc fm) y o st (seq ft pr b!"(" b!")" s l (some en) .tuple fc fm st)))) := by
  refine (seq_spec (elem := AnyG ft pr) (m := .tuple) (o := 40) (c := 41) (by decide) (.inl rfl) (.inl rfl) (fun x hx => (hl x hx).isNil) (by rintro _ ⟨⟩; exact he)
    (fun x hx st hc => H.el (hl x hx) (hf x hx) hc) H.keep st hc).mono ?_
  rintro _ ⟨s1, as, rfl, ht, hs, hln⟩
  obtain ⟨e1, e2⟩ := group_ends (s := s1) (o := 40) (cl := 41) (.inl rfl) (.inl rfl)
  refine ⟨e1, e2, _, lx_group (.inl rfl) (.inl rfl) ht, g_tuple hs ?_⟩
  intro p e l' hp he' hI
  exact r_tuple he (fun x hx => ⟨(hl x hx).isNil, (hl x hx).comments⟩) hc hfc hI hp rfl (he'.trans hln.symm)

theorem p_dict {s l en fm o b st} (he : en.comments = {}) (hl : ∀ a ∈ l, OkKV a) (hf : ∀ a ∈ l, Fo a) (hc : Clean st) :
    Adds st (seq ft pr b!"{" b!"}" s l (some en) .dict false fm st)
      (Y b (line st) .primary (OE (fun y => RQ ft (.dict {} s l en fm) y o st (seq ft pr b!"{" b!"}" s l (some en) .dict false fm st)))) := by
  refine (seq_spec (elem := KvG ft pr) (m := .dict) (o := 123) (c := 125) (by decide) (.inr (.inr rfl)) (.inr (.inr rfl)) (fun x hx => (hl x hx).isNil) (by rintro _ ⟨⟩; exact he)
    (fun x hx st hc => H.kv x st (hl x hx) (hf x hx) hc) H.keep st hc).mono ?_
  rintro _ ⟨s1, as, rfl, ht, hs, hln⟩
  obtain ⟨e1, e2⟩ := group_ends (s := s1) (o := 123) (cl := 125) (.inr (.inr rfl)) (.inr (.inr rfl))
  refine ⟨e1, e2, _, lx_group (.inr (.inr rfl)) (.inr (.inr rfl)) ht, g_dict hs ?_⟩
  intro p e l' hp he' hI
  exact r_dict he (fun x hx => ⟨(hl x hx).isNil, okKV_comments (hl x hx)⟩) hc hI hp rfl (he'.trans hln.symm)

omit H in
theorem items_one {o start x e m fc fm st} : ∃ s1, items ft pr o start [x] e m fc fm st = [(x, s1)] := by
  unfold items
  split
  · exact ⟨_, rfl⟩
  · exact ⟨_, rfl⟩

theorem p_paren {s x en fm o b st} (he : en.comments = {}) (hx : Ok x) (hf : Fo x) (hc : Clean st) :
    Adds st (seq ft pr b!"(" b!")" s [x] (some en) .paren false fm st)
      (Y b (line st) .primary (OE (fun y => RQ ft (.paren {} s x en fm) y o st (seq ft pr b!"(" b!")" s [x] (some en) .paren false fm st)))) := by
  have hl : ∀ a ∈ [x], Ok a ∧ Fo a := by intro a ha; rw [List.mem_singleton.1 ha]; exact ⟨hx, hf⟩
  refine (seq_spec (elem := AnyG ft pr) (m := .paren) (o := 40) (c := 41) (by decide) (.inl rfl) (.inl rfl) (fun x hx => (hl x hx).1.isNil) (by rintro _ ⟨⟩; exact he)
    (fun x hx st hc => H.el (hl x hx).1 (hl x hx).2 hc) H.keep st hc).mono ?_
  rintro _ ⟨s1, as, rfl, ht, hs, hln⟩
  obtain ⟨e1, e2⟩ := group_ends (s := s1) (o := 40) (cl := 41) (.inl rfl) (.inl rfl)
  obtain ⟨s2, hi⟩ := items_one (ft := ft) (pr := pr) (o := b!"(") (start := s) (x := x) (e := some en) (m := .paren) (fc := false) (fm := fm) (st := st)
  have hs' : SeqA (AnyG ft pr) .paren [(x, s2)] as := hi ▸ hs
  refine ⟨e1, e2, _, lx_group (.inl rfl) (.inl rfl) ht, g_paren hs' ?_⟩
  intro p e x' hp he' hI
  exact r_paren he ⟨hx.isNil, hx.comments⟩ hc (by rw [hi]; exact .cons _ _ _ _ hI .nil) hp rfl (he'.trans hln.symm)

theorem p_call {x ls l en fc fm o b st} (hft : ft ≠ .module) (ho : o ≤ 14) (he : en.comments = {}) (hx : Ok x) (hfx : Fo x) (hcond : isCond x = false) (hl : ∀ a ∈ l, OkArg a) (hf : ∀ a ∈ l, Fo a)
    (hfc : fc = true → ∀ a ∈ l, isSimple a = true) (hc : Clean st) (hd : Dep b st x) :
    Adds st (seq ft pr b!"(" b!")" ls l (some en) .call fc fm (pr x 14 st))
      (Y b (line st) .primary (OE (fun y => RQ ft (.call {} x ls l en fc fm) y o st (seq ft pr b!"(" b!")" ls l (some en) .call fc fm (pr x 14 st))))) := by
  have hB := H.base hx hfx hcond hc hd
  refine hB.trans (fun hc' => seq_spec (elem := ArgG ft pr) (m := .call) (o := 40) (c := 41) (by decide) (.inl rfl) (.inl rfl)
    (fun x hx => (hl x hx).isNil) (by rintro _ ⟨⟩; exact he) (fun x hx st hc => H.arg x st (hl x hx) (hf x hx) hc) H.keep _ hc') ?_
  rintro s0 _ ⟨⟨q1, q2, as0, q3, q4⟩, hl0⟩ ⟨s1, as, rfl, ht, hs, hln⟩
  obtain ⟨e1, e2⟩ := group_ends (s := s1) (o := 40) (cl := 41) (.inl rfl) (.inl rfl)
  rw [hl0] at ht
  refine ⟨q1.app, e2.app, _, fun c hc => Lx.appT q3 follow40 (lx_group (.inl rfl) (.inl rfl) ht c hc), g_call q4 hs ?_⟩
  intro x' p e l' hx' hp he' hI
  refine r_call hft ho he (fun x hx => ⟨(hl x hx).isNil, okArg_comments (hl x hx)⟩) hc hB.1 hfc hx' hI (hp.trans hl0.symm) rfl (he'.trans ?_)
  rw [hln, hl0]

/-! ## Suffixes -/

theorem p_index {x p y en o b st} (ho : o ≤ 14) (hx : Ok x) (hfx : Fo x) (hcond : isCond x = false) (hy : OkExpr y) (hfy : Fo y) (hc : Clean st) (hd : Dep b st x) :
    Adds st (emit b!"]" (pr y 0 (emit b!"[" (pr x 14 st))))
      (Y b (line st) .primary (OE (fun z => RQ ft (.index {} x p y en) z o st (emit b!"]" (pr y 0 (emit b!"[" (pr x 14 st))))))) := by
  have h1 := (H.base hx hfx hcond hc hd).emit (t := b!"[") (R := fun s => ∃ s0, s = s0 ++ [91] ∧ Y b (line st) .primaryExpr (OE (fun y => RQ ft x y 14 st (pr x 14 st))) s0 ∧ line (pr x 14 st) = line st + nl s0)
    (fun s q => ⟨s, rfl, q⟩)
  have hle : line (emit b!"[" (pr x 14 st)) = line (pr x 14 st) := line_emit0 (by decide) _
  have h2 := h1.trans (fun hc' => lined (H.expr y 0 true _ hy hfy (by omega) hc' (dep_true _ _))) (R := fun s => ∃ s0 s1, s = s0 ++ 91 :: s1 ∧
      Y b (line st) .primaryExpr (OE (fun y => RQ ft x y 14 st (pr x 14 st))) s0 ∧
      Y true (line st + nl s0) .expr (OE (fun z => RQ ft y z 0 (emit b!"[" (pr x 14 st)) (pr y 0 (emit b!"[" (pr x 14 st))))) s1 ∧
      line (pr y 0 (emit b!"[" (pr x 14 st))) = line st + nl s0 + nl s1)
    (by rintro _ s2 ⟨s0, rfl, q, hl⟩ ⟨r, hl2⟩; rw [hle, hl] at r hl2; exact ⟨s0, s2, by simp, q, r, hl2⟩)
  refine h2.emit ?_
  rintro _ ⟨s0, s1, rfl, ⟨q1, q2, as0, q3, q4⟩, ⟨_, _, as1, r3, r4⟩, hln⟩
  obtain ⟨e1, e2⟩ := group_ends (s := s1) (o := 91) (cl := 93) (.inr (.inl rfl)) (.inr (.inl rfl))
  refine ⟨?_, ?_, _, fun c hc => ?_, g_index (a := line st + nl s0) (z := line st + nl s0 + nl s1) q4 r4 ?_⟩
  · rw [List.append_assoc]; exact q1.app
  · rw [List.append_assoc]; exact e2.app
  · rw [List.append_assoc]
    exact Lx.appT q3 follow91 (lx_group (.inr (.inl rfl)) (.inr (.inl rfl)) r3 c hc)
  · intro x' y' p' e' hx' hy' he'
    exact r_index ho hc hx' hy' (he'.trans hln.symm)

omit H in
/-- an optional part of a slice -/
theorem p_opt {e : Expr} {st : St} {P : Bytes → Prop} {X : FNT} {st0 : St} {ln : Nat} (hl : line st = ln) (h0 : Adds st0 st P) (hn : Gen [] (.n X) (OE (· = .nil)))
    (h : e.isNil = false → Clean st → Adds st (pr e 0 st) (Y true (line st) X (OE (fun y => RQ ft e y 0 st (pr e 0 st))))) :
    Adds st0 (opt pr e st) (fun s => ∃ s0 s1, s = s0 ++ s1 ∧ P s0 ∧ line (opt pr e st) = ln + nl s1 ∧ ∃ as, T true ln s1 as ∧ Gen as (.n X) (OE (fun y => RO ft pr e y st))) := by
  unfold opt
  cases he : e.isNil with
  | true =>
    simp only [if_true]
    exact h0.mono (fun s p => ⟨s, [], by simp, p, hl, [], fun c _ => Lx.nil .., hn.mono (fun v q => .inl ⟨isNil_eq he, q⟩)⟩)
  | false =>
    simp only [Bool.false_eq_true, if_false]
    refine h0.trans (fun hc => lined (h he hc)) ?_
    rintro s0 s1 p ⟨⟨_, _, as, q1, q2⟩, q3⟩
    rw [hl] at q1 q3
    exact ⟨s0, s1, rfl, p, q3, as, q1, q2.mono (fun v q => .inr ⟨he, q⟩)⟩

theorem p_slice {x p fr c1 to c2 sp en o b st} (ho : o ≤ 14) (hx : Ok x) (hfx : Fo x) (hcond : isCond x = false) (hfr : fr.isNil = false → OkExpr fr) (hffr : Fo fr)
    (hto : to.isNil = false → Ok to) (hfto : Fo to) (hst : sp.isNil = false → Ok sp) (hfsp : Fo sp) (hc2 : c2.byte = 0 → sp.isNil) (hc : Clean st) (hd : Dep b st x) {s1 s2 s3 : St}
    (hs1 : s1 = opt pr fr (emit b!"[" (pr x 14 st))) (hs2 : s2 = opt pr to (emit b!":" s1)) (hs3 : s3 = if c2.byte ≠ 0 then opt pr sp (emit b!":" s2) else s2) :
    Adds st (emit b!"]" s3) (Y b (line st) .primary (OE (fun z => RQ ft (.slice {} x p fr c1 to c2 sp en) z o st (emit b!"]" s3)))) := by
  have h1 := (H.base hx hfx hcond hc hd).emit (t := b!"[") (R := fun s => ∃ s0, s = s0 ++ [91] ∧ Y b (line st) .primaryExpr (OE (fun y => RQ ft x y 14 st (pr x 14 st))) s0 ∧ line (pr x 14 st) = line st + nl s0)
    (fun s q => ⟨s, rfl, q⟩)
  have hle : line (emit b!"[" (pr x 14 st)) = line (pr x 14 st) := line_emit0 (by decide) _
  have hle1 : line (emit b!":" s1) = line s1 := line_emit0 (by decide) _
  have hle2 : line (emit b!":" s2) = line s2 := line_emit0 (by decide) _
  have h2 := p_opt (e := fr) hle h1 g_exprNone (fun hn hc' => (H.expr fr 0 true _ (hfr hn) hffr (by omega) hc' (dep_true _ _)).mono (fun _ q => q.mono (fun _ g => g_exprSome g)))
  rw [← hs1] at h2
  have h3 := h2.emit (t := b!":") (R := fun s => ∃ s0 t1 as1, s = s0 ++ 91 :: (t1 ++ [58]) ∧ Y b (line st) .primaryExpr (OE (fun y => RQ ft x y 14 st (pr x 14 st))) s0 ∧
      T true (line st + nl s0) t1 as1 ∧ Gen as1 (.n .exprOpt) (OE (fun y => RO ft pr fr y (emit b!"[" (pr x 14 st)))) ∧ line s1 = line st + nl s0 + nl t1) (by
    rintro _ ⟨_, t1, rfl, ⟨s0, rfl, q, e1⟩, e2, as1, r1, r2⟩
    rw [e1] at r1 e2
    exact ⟨s0, t1, as1, by simp, q, r1, r2, e2⟩)
  have tst : ∀ {e : Expr} {st : St}, (e.isNil = false → Ok e) → Fo e → e.isNil = false → Clean st → Adds st (pr e 0 st) (Y true (line st) .testOpt (OE (fun y => RQ ft e y 0 st (pr e 0 st)))) := by
    intro e st he hf hn hc'
    exact (H.any (he hn) hf (Nat.zero_le 2) hc' (dep_true _ _)).mono (fun _ q => q.mono (fun _ g => g_testSome g))
  have h4 := p_opt (e := to) hle1 h3 g_testNone (fun hn hc' => tst hto hfto hn hc')
  rw [← hs2] at h4
  by_cases hb : c2.byte = 0
  · rw [if_neg (by simp [hb])] at hs3
    have hsn := isNil_eq (hc2 hb)
    rw [hs3]
    refine h4.emit ?_
    rintro _ ⟨_, t2, rfl, ⟨s0, t1, as1, rfl, ⟨q1, q2, as0, q3, q4⟩, r1, r2, e0⟩, e3, as2, w1, w2⟩
    obtain ⟨e1, e2⟩ := group_ends (s := t1 ++ 58 :: t2) (o := 91) (cl := 93) (.inr (.inl rfl)) (.inr (.inl rfl))
    rw [e0] at w1 e3
    have hin : T true (line st + nl s0) (t1 ++ 58 :: t2) (as1 ++ W (line st + nl s0 + nl t1) 58 b!":" :: as2) := fun c hc => Lx.appT r1 follow58 (lx_colon (w1 c hc))
    have e : s0 ++ 91 :: (t1 ++ [58]) ++ t2 ++ b!"]" = s0 ++ (91 :: ((t1 ++ 58 :: t2) ++ [93])) := by simp
    rw [e]
    refine ⟨q1.app, e2.app, _, fun c hc => Lx.appT q3 follow91 (lx_group (.inr (.inl rfl)) (.inr (.inl rfl)) hin c hc), ?_⟩
    refine (g_slice1 (a := line st + nl s0) (ln := line st + nl s0 + nl t1) (z := line st + nl s0 + nl (t1 ++ 58 :: t2)) q4 r2 w2 ?_).cast (by simp)
    intro x' y' z' p' c1' e' hx' hy' hz' he'
    refine r_slice ho hc hx' hs1 hs2 (s3 := s2) (by rw [if_neg (by simp [hb])]) hy' hz' (fun h => absurd hb h) ?_ ⟨fun _ => rfl, fun _ => hb⟩ ?_
    · rw [hsn]; exact .nil
    · rw [he', e3, nl_append, nl_cons, if_neg (by decide)]; omega
  · rw [if_pos hb] at hs3
    have h5 := h4.emit (t := b!":") (R := fun s => ∃ s0 t1 t2 as1 as2, s = s0 ++ 91 :: (t1 ++ 58 :: (t2 ++ [58])) ∧ Y b (line st) .primaryExpr (OE (fun y => RQ ft x y 14 st (pr x 14 st))) s0 ∧
      T true (line st + nl s0) t1 as1 ∧ Gen as1 (.n .exprOpt) (OE (fun y => RO ft pr fr y (emit b!"[" (pr x 14 st)))) ∧
      T true (line st + nl s0 + nl t1) t2 as2 ∧ Gen as2 (.n .testOpt) (OE (fun y => RO ft pr to y (emit b!":" s1))) ∧ line s2 = line st + nl s0 + nl t1 + nl t2) (by
      rintro _ ⟨_, t2, rfl, ⟨s0, t1, as1, rfl, q, r1, r2, e0⟩, e3, as2, w1, w2⟩
      rw [e0] at w1 e3
      exact ⟨s0, t1, t2, as1, as2, by simp, q, r1, r2, w1, w2, e3⟩)
    have h6 := p_opt (e := sp) hle2 h5 g_testNone (fun hn hc' => tst hst hfsp hn hc')
    rw [← hs3] at h6
    refine h6.emit ?_
    rintro _ ⟨_, t3, rfl, ⟨s0, t1, t2, as1, as2, rfl, ⟨q1, q2, as0, q3, q4⟩, r1, r2, w1, w2, e0⟩, e3, as3, z1, z2⟩
    obtain ⟨e1, e2⟩ := group_ends (s := t1 ++ 58 :: (t2 ++ 58 :: t3)) (o := 91) (cl := 93) (.inr (.inl rfl)) (.inr (.inl rfl))
    rw [e0] at z1 e3
    have hin : T true (line st + nl s0) (t1 ++ 58 :: (t2 ++ 58 :: t3)) (as1 ++ W (line st + nl s0 + nl t1) 58 b!":" :: (as2 ++ W (line st + nl s0 + nl t1 + nl t2) 58 b!":" :: as3)) :=
      fun c hc => Lx.appT r1 follow58 (lx_colon (Lx.appT w1 follow58 (lx_colon (z1 c hc))))
    have e : s0 ++ 91 :: (t1 ++ 58 :: (t2 ++ [58])) ++ t3 ++ b!"]" = s0 ++ (91 :: ((t1 ++ 58 :: (t2 ++ 58 :: t3)) ++ [93])) := by simp
    rw [e]
    refine ⟨q1.app, e2.app, _, fun c hc => Lx.appT q3 follow91 (lx_group (.inr (.inl rfl)) (.inr (.inl rfl)) hin c hc), ?_⟩
    refine (g_slice2 (a := line st + nl s0) (ln := line st + nl s0 + nl t1) (l2 := line st + nl s0 + nl t1 + nl t2) (z := line st + nl s0 + nl (t1 ++ 58 :: (t2 ++ 58 :: t3))) q4 r2 w2 z2 ?_).cast (by simp)
    intro x' y' z' w' p' c1' c2' e' hx' hy' hz' hw' hc2' he'
    refine r_slice ho hc hx' hs1 hs2 (s3 := s3) (by rw [if_pos hb]; exact hs3) hy' hz' (fun _ => hw') hw'.same ⟨fun h => absurd h hb, fun h => absurd h hc2'⟩ ?_
    rw [he', e3, nl_append, nl_cons, nl_append, nl_cons, if_neg (by decide)]; omega

theorem p_dot {x dp np name o b st} (ho : o ≤ 14) (hx : Ok x) (hfx : Fo x) (hcond : isCond x = false) (hint : isInt x = false) (hn : Name name) (hc : Clean st)
    (hd : Dep b st (.dot {} x dp np name)) {r : St} (hr : r = if differentLines np x.endPos then
        { emit (b!"." ++ name) (breakline { pr x 14 st with margin := (pr x 14 st).margin + listIndentation }) with
          margin := (emit (b!"." ++ name) (breakline { pr x 14 st with margin := (pr x 14 st).margin + listIndentation })).margin - listIndentation }
      else emit (b!"." ++ name) (pr x 14 st)) :
    Adds st r (Y b (line st) .primary (OE (fun y => RQ ft (.dot {} x dp np name) y o st r))) := by
  have hdx : Dep b st x := by
    intro hb
    rcases hd hb with ⟨h1, h2⟩ | h
    · exact .inl ⟨h1, h2⟩
    · unfold tight at h; simp only [Bool.and_eq_true] at h; exact .inr h.2
  have h1 : Adds st (pr x 14 st) (fun s => Y b (line st) .primary (OE (fun y => RQ ft x y 14 st (pr x 14 st))) s ∧ line (pr x 14 st) = line st + nl s) :=
    lined ((H.ok x 14 b st hx hfx (by omega) hc hdx).mono (fun _ q => q.mono (fun _ g => fits14' hcond hint hx g)))
  have hcx := h1.1
  obtain ⟨n1, n2⟩ := name_text hn
  have hnn : nl (b!"." ++ name) = 0 := by rw [nl_append, name_nl hn]; rfl
  have hdot : ∀ ln, T b ln (b!"." ++ name) [W ln 46 b!".", W ln K.ident name] := fun ln c hc => lx_dot (t_name hn c hc)
  have hrq := fun (x' : Expr) (dp' np' : Pos) (hx' : RQ ft x x' 14 st (pr x 14 st)) (hnp : np'.line = line r) => r_dot (c := {}) (dp := dp) (np := np) (dp' := dp') (np' := np') ho hc hcx (name_nl hn) hx' hr hnp
  cases hl : differentLines np x.endPos with
  | false =>
    rw [hl] at hr
    simp only [Bool.false_eq_true, if_false] at hr
    have hlr : line r = line (pr x 14 st) := by rw [hr, line_emit, hnn]; rfl
    subst hr
    refine h1.emit ?_
    rintro s ⟨⟨q1, q2, as, q3, q4⟩, hln⟩
    refine ⟨q1.app, (n2.cons).app, _, fun c hc => Lx.appT q3 follow46 (hdot _ c hc), g_dot (ln := line st + nl s) q4 ?_⟩
    intro x' dp' np' hx' hnp
    exact hrq x' dp' np' hx' (by rw [hnp, hlr, hln])
  | true =>
    rw [hl] at hr
    simp only [if_true] at hr
    have hcm : Clean { pr x 14 st with margin := (pr x 14 st).margin + listIndentation } := hcx
    have hlr : line r = line (pr x 14 st) + 1 := by
      rw [hr]
      show line (emit (b!"." ++ name) (breakline { pr x 14 st with margin := (pr x 14 st).margin + listIndentation })) = _
      rw [line_emit, hnn, line_breakline hcm]; rfl
    have h1' : Adds st { pr x 14 st with margin := (pr x 14 st).margin + listIndentation } _ := h1
    have hdep : (pr x 14 st).depth = st.depth := (H.keep _ _ _).1
    have h2 := h1'.breakline (R := fun s => ∃ s1 t esc, s = s1 ++ t ∧ Y b (line st) .primary (OE (fun y => RQ ft x y 14 st (pr x 14 st))) s1 ∧ line (pr x 14 st) = line st + nl s1 ∧
        Brk esc t ∧ (b = false → esc = true)) (fun s q => q.1.2.1) (by
      rintro s t ⟨q, q'⟩ ht
      refine ⟨s, t, _, rfl, q, q', ht, fun hb => ?_⟩
      rcases hd hb with ⟨h1, h2⟩ | h
      · show decide ((pr x 14 st).depth = 0) = true
        rw [hdep, h1]; rfl
      · unfold tight at h; rw [hl] at h; cases h)
    have h3 := h2.emit (t := b!"." ++ name) (R := Y b (line st) .primary (OE (fun y => RQ ft (.dot {} x dp np name) y o st r))) (by
      rintro _ ⟨s, t, esc, rfl, ⟨q1, q2, as, q3, q4⟩, hln, ht, he⟩
      refine ⟨(q1.app).app, (n2.cons).app, _, fun c hc => ?_, g_dot (name := name) (ln := line st + nl s + 1) (l1 := line st + nl s + 1) q4 ?_⟩
      · rw [List.append_assoc]
        exact Lx.appT q3 (brk_head ht) (lx_brk he ht (hdot _ c hc))
      · intro x' dp' np' hx' hnp
        exact hrq x' dp' np' hx' (by rw [hnp, hlr, hln]))
    rw [hr] at h3 ⊢
    exact h3

end
end Verif.Again
