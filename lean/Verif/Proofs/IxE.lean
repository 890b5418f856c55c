import Verif.Proofs.IxFit
/-
What the printer writes for an expression with comments reads back as that expression: like Proofs/PrText.lean and Proofs/PrintE.lean.
-/
namespace Verif.RoundI
open Verif Verif.Syntax Verif.Lexer Verif.Print Verif.Grammar Verif.Parser Verif.Round

theorem t_name {b t} (h : Name t) : T b t [W K.ident t] := fun _ hc => Lx.tok b t _ _ (tok_name h hc) rfl
theorem t_int {b t} (h : IntText t) : T b t [W K.int t] := fun _ hc => Lx.tok b t _ _ (tok_int h hc) rfl
theorem t_str {b t v tr} (h : Props.Quote.GoodLiteral t v tr) : T b t [⟨K.string, t, v, tr⟩] := fun _ hc => Lx.tok b t _ _ (tok_string h hc) rfl

theorem lx_dot {b s c as} (h : Lx b s c as) : Lx b (46 :: s) c (W 46 b!"." :: as) := Lx.pre (t := b!".") (tok_single (by decide) _) (by decide) h

theorem lx_kw {b t s c as} {k : Kind} (h : (∃ x s, t = x :: s ∧ isIdent x = true ∧ s.all isIdent = true) ∧ identKind t = k ∧ depthChange k = 0)
    (hf : Follow (s.headD c)) (h2 : Lx b s c as) : Lx b (t ++ s) c (W k t :: as) :=
  Lx.pre (tok_kw h.1 h.2.1 hf) h.2.2 h2

/-- an operator followed by a blank or a line break -/
theorem lx_op {b : Bool} {op : Bytes} {c : UInt8} (h : op ∈ allOps) (hc : c = 32 ∨ c = 10) : Lx b op c (opToks op) := by
  have hf : Follow c := by rcases hc with rfl | rfl; exact follow32; exact follow10
  have kw : ∀ (t : Bytes) (k : Kind), ((∃ x s, t = x :: s ∧ isIdent x = true ∧ s.all isIdent = true) ∧ identKind t = k ∧ depthChange k = 0) → Lx b t c [W k t] :=
    fun t k h => Lx.tok b t c _ (tok_kw h.1 h.2.1 hf) h.2.2
  have sy : ∀ (t : Bytes) (k : Kind), (∃ x s, t = x :: s ∧ isOpByte x = true ∧ ∀ c r, (c = 32 ∨ c = 10) → scanOp x (s ++ c :: r) = (k, t, c :: r)) → depthChange k = 0 → Lx b t c [W k t] :=
    fun t k ⟨x, s, e, h1, h2⟩ hd => Lx.tok b t c _ (tok_op ⟨x, s, e, h1, fun r => h2 c r hc⟩) hd
  have two : ∀ (t1 t2 : Bytes) (k1 k2 : Kind), ((∃ x s, t1 = x :: s ∧ isIdent x = true ∧ s.all isIdent = true) ∧ identKind t1 = k1 ∧ depthChange k1 = 0) →
      ((∃ x s, t2 = x :: s ∧ isIdent x = true ∧ s.all isIdent = true) ∧ identKind t2 = k2 ∧ depthChange k2 = 0) → Lx b (t1 ++ 32 :: t2) c [W k1 t1, W k2 t2] :=
    fun t1 t2 k1 k2 h1 h2 => lx_kw h1 follow32 (Lx.sp (kw t2 k2 h2))
  simp only [allOps, binOps, isOps, assignOps, augOps, List.cons_append, List.nil_append, List.mem_cons, List.not_mem_nil, or_false] at h
  rcases h with rfl | rfl | rfl | rfl | rfl | rfl | rfl | rfl | rfl | rfl | rfl | rfl | rfl | rfl | rfl | rfl | rfl | rfl | rfl | rfl | rfl | rfl | rfl |
    rfl | rfl | rfl | rfl | rfl | rfl | rfl | rfl | rfl | rfl | rfl | rfl
  · exact kw _ _ ⟨⟨_, _, rfl, by decide, by decide⟩, by decide, by decide⟩
  · exact kw _ _ ⟨⟨_, _, rfl, by decide, by decide⟩, by decide, by decide⟩
  · exact sy _ _ ⟨_, _, rfl, by decide, by rintro c r (rfl | rfl) <;> rfl⟩ (by decide)
  · exact sy _ _ ⟨_, _, rfl, by decide, by rintro c r (rfl | rfl) <;> rfl⟩ (by decide)
  · exact sy _ _ ⟨_, _, rfl, by decide, by rintro c r (rfl | rfl) <;> rfl⟩ (by decide)
  · exact sy _ _ ⟨_, _, rfl, by decide, by rintro c r (rfl | rfl) <;> rfl⟩ (by decide)
  · exact sy _ _ ⟨_, _, rfl, by decide, by rintro c r (rfl | rfl) <;> rfl⟩ (by decide)
  · exact sy _ _ ⟨_, _, rfl, by decide, by rintro c r (rfl | rfl) <;> rfl⟩ (by decide)
  · exact kw _ _ ⟨⟨_, _, rfl, by decide, by decide⟩, by decide, by decide⟩
  · exact two b!"not" b!"in" K.not K.in_ ⟨⟨_, _, rfl, by decide, by decide⟩, by decide, by decide⟩ ⟨⟨_, _, rfl, by decide, by decide⟩, by decide, by decide⟩
  · exact sy _ _ ⟨_, _, rfl, by decide, by rintro c r (rfl | rfl) <;> rfl⟩ (by decide)
  · exact sy _ _ ⟨_, _, rfl, by decide, by rintro c r (rfl | rfl) <;> rfl⟩ (by decide)
  · exact sy _ _ ⟨_, _, rfl, by decide, by rintro c r (rfl | rfl) <;> rfl⟩ (by decide)
  · exact sy _ _ ⟨_, _, rfl, by decide, by rintro c r (rfl | rfl) <;> rfl⟩ (by decide)
  · exact sy _ _ ⟨_, _, rfl, by decide, by rintro c r (rfl | rfl) <;> rfl⟩ (by decide)
  · exact sy _ _ ⟨_, _, rfl, by decide, by rintro c r (rfl | rfl) <;> rfl⟩ (by decide)
  · exact sy _ _ ⟨_, _, rfl, by decide, by rintro c r (rfl | rfl) <;> rfl⟩ (by decide)
  · exact sy _ _ ⟨_, _, rfl, by decide, by rintro c r (rfl | rfl) <;> rfl⟩ (by decide)
  · exact sy _ _ ⟨_, _, rfl, by decide, by rintro c r (rfl | rfl) <;> rfl⟩ (by decide)
  · exact sy _ _ ⟨_, _, rfl, by decide, by rintro c r (rfl | rfl) <;> rfl⟩ (by decide)
  · exact sy _ _ ⟨_, _, rfl, by decide, by rintro c r (rfl | rfl) <;> rfl⟩ (by decide)
  · exact kw _ _ ⟨⟨_, _, rfl, by decide, by decide⟩, by decide, by decide⟩
  · exact two b!"is" b!"not" K.is K.not ⟨⟨_, _, rfl, by decide, by decide⟩, by decide, by decide⟩ ⟨⟨_, _, rfl, by decide, by decide⟩, by decide, by decide⟩
  all_goals exact sy _ _ ⟨_, _, rfl, by decide, by rintro c r (rfl | rfl) <;> rfl⟩ (by decide)

theorem lx_group {b : Bool} {o cl : UInt8} {s : Bytes} {as : List ATok} (ho : o = 40 ∨ o = 91 ∨ o = 123) (hc : cl = 41 ∨ cl = 93 ∨ cl = 125)
    (h : T true s as) : T b (o :: (s ++ [cl])) (W o.toNat [o] :: (as ++ [W cl.toNat [cl]])) := by
  intro c _
  refine Lx.group b o cl s c as ho hc (h cl ?_)
  rcases hc with rfl | rfl | rfl
  · exact follow41
  · exact follow93
  · exact follow125

theorem withParen_spec {prec outer : Nat} {b : Bool} {st : St} {body : St → St} {e : Expr} {x : FNT} (hc : Clean st) (hd : Dep b st e)
    (hbody : ∀ b' st1, Clean st1 → Dep b' st1 e → Adds st1 (body st1) (Y b' x (SE e))) (hx : ∀ as, Gen as (.n x) (SE e) → Gen as (.n (.any 2)) (SE e)) :
    Adds st (withParen prec outer body st) (Y b (if prec < outer then .primary else x) (SE e)) := by
  unfold withParen
  by_cases h : prec < outer
  · rw [if_pos h, if_pos h]
    have h0 : Adds st { emit b!"(" st with depth := st.depth + 1 } (· = b!"(") := Adds.emit0 hc rfl
    have h1 := h0.trans (R := fun s => ∃ s1, s = 40 :: s1 ∧ Y true x (SE e) s1) (fun hc' => hbody true _ hc' (dep_true _ _)) (by
      rintro _ s2 rfl q; exact ⟨s2, rfl, q⟩)
    have h2 : Adds st { body { emit b!"(" st with depth := st.depth + 1 } with depth := (body { emit b!"(" st with depth := st.depth + 1 }).depth - 1 }
      (fun s => ∃ s1, s = 40 :: s1 ∧ Y true x (SE e) s1) := h1
    refine h2.emit ?_
    rintro _ ⟨s1, rfl, _, _, as, ht, hg⟩
    obtain ⟨e1, e2⟩ := group_ends (s := s1) (o := 40) (cl := 41) (.inl rfl) (.inl rfl)
    exact ⟨e1, e2, _, lx_group (.inl rfl) (.inl rfl) ht, g_added (hx _ hg)⟩
  · rw [if_neg h, if_neg h]
    exact hbody b st hc hd

/-! ## Operators -/

section
variable {pr : Pr} {b : Bool} {st : St} {x y : Expr} {px py : Nat} {op : Bytes} {lb : Bool} {mg : St → Nat} {P1 P2 : List ATok → Prop}

/-- what an infix operator prints -/
theorem infix_spec (hc : Clean st) (hk : ∀ e o st, Keep st (pr e o st)) (hop : op ∈ allOps)
    (hx : ∀ st1, Clean st1 → st1.depth = st.depth → Adds st1 (pr x px st1) (YP b P1))
    (hy : ∀ st1, Clean st1 → st1.depth = st.depth → Adds st1 (pr y py st1) (YP b P2))
    (hlb : lb = true → b = false → st.depth = 0) :
    Adds st (let m := st.margin
      let st := if lb then { st with margin := mg st } else st
      let st := emit (b!" " ++ op) (pr x px st)
      let st := if lb then breakline st else emit b!" " st
      { pr y py st with margin := m })
      (fun s => StartOK s ∧ EndOK s ∧ ∃ as1 as2, T b s (as1 ++ (opToks op ++ as2)) ∧ P1 as1 ∧ P2 as2) := by
  dsimp only
  have e1 := op_end hop
  have fin : ∀ (s1 t s2 : Bytes), YP b P1 s1 → (t = [32] ∨ ∃ esc, Brk esc t ∧ (b = false → esc = true)) → YP b P2 s2 →
      StartOK ((s1 ++ (b!" " ++ op)) ++ t ++ s2) ∧ EndOK ((s1 ++ (b!" " ++ op)) ++ t ++ s2) ∧
        ∃ as1 as2, T b ((s1 ++ (b!" " ++ op)) ++ t ++ s2) (as1 ++ (opToks op ++ as2)) ∧ P1 as1 ∧ P2 as2 := by
    rintro s1 t s2 ⟨q1, q2, as1, q3, q4⟩ ht ⟨r1, r2, as2, r3, r4⟩
    refine ⟨((q1.app).app).app, r2.app, as1, as2, fun c hc => ?_, q4, r4⟩
    have hmid : Lx b (op ++ (t ++ s2)) c (opToks op ++ as2) := by
      rcases ht with rfl | ⟨esc, hbk, he⟩
      · exact Lx.app b op _ c _ _ (lx_op hop (.inl rfl)) (Lx.sp (r3 c hc))
      · refine Lx.app b op _ c _ _ (lx_op hop ?_) (lx_brk he hbk (r3 c hc))
        obtain ⟨y, r, rfl, hy⟩ := brk_shape hbk
        exact hy
    have := Lx.appT (s2 := 32 :: (op ++ (t ++ s2))) (c := c) q3 follow32 (Lx.sp hmid)
    simpa using this
  cases lb with
  | false =>
    simp only [Bool.false_eq_true, if_false]
    have h1 := (hx st hc rfl).emit (t := b!" " ++ op) (R := fun s => ∃ s1, s = s1 ++ (b!" " ++ op) ∧ YP b P1 s1) (fun s q => ⟨s, rfl, q⟩)
    have h2 := h1.emit (t := b!" ") (R := fun s => ∃ s1, s = s1 ++ (b!" " ++ op) ++ [32] ∧ YP b P1 s1) (by rintro _ ⟨s, rfl, q⟩; exact ⟨s, rfl, q⟩)
    have h3 := h2.trans (fun hc' => hy _ hc' (hk _ _ _).1) (R := fun s => StartOK s ∧ EndOK s ∧ ∃ as1 as2, T b s (as1 ++ (opToks op ++ as2)) ∧ P1 as1 ∧ P2 as2) (by
      rintro _ s2 ⟨s1, rfl, q⟩ r
      exact fin s1 [32] s2 q (.inl rfl) r)
    exact h3
  | true =>
    simp only [if_true]
    have h0 : Adds st { st with margin := mg st } (· = []) := Adds.refl hc
    have h1 : Adds st (pr x px { st with margin := mg st }) (YP b P1) := h0.trans (fun hc' => hx _ hc' rfl) (by rintro _ s2 rfl q; exact q)
    have h1' := h1.emit (t := b!" " ++ op) (R := fun s => ∃ s1, s = s1 ++ (b!" " ++ op) ∧ YP b P1 s1) (fun s q => ⟨s, rfl, q⟩)
    have hd1 : (emit (b!" " ++ op) (pr x px { st with margin := mg st })).depth = st.depth := (hk _ _ _).1
    have h2 := h1'.breakline (R := fun s => ∃ s1 t, s = s1 ++ (b!" " ++ op) ++ t ∧ YP b P1 s1 ∧ ∃ esc, Brk esc t ∧ (b = false → esc = true))
      (by rintro _ ⟨s1, rfl, _⟩; exact (e1.app).app) (by
      rintro _ t ⟨s1, rfl, q⟩ ht
      refine ⟨s1, t, rfl, q, _, ht, fun hb => ?_⟩
      rw [hd1, hlb rfl hb]
      rfl)
    have h3 := h2.trans (fun hc' => hy _ hc' (((keep_breakline _).1).trans hd1)) (R := fun s => StartOK s ∧ EndOK s ∧ ∃ as1 as2, T b s (as1 ++ (opToks op ++ as2)) ∧ P1 as1 ∧ P2 as2) (by
      rintro _ s2 ⟨s1, t, rfl, q, ht⟩ r
      exact fin s1 t s2 q (.inr ht) r)
    exact h3
end

/-- arguments of a load statement as the printer builds them -/
inductive OkLoadArg : Expr → Prop
  | string (n) : CO n.comments → (n.token = [] ∨ Props.Quote.LexedToken n.token) → OkLoadArg (.string n)
  | named (n m) : CN n.comments → Name n.name → CN m.comments → m.token = [] → OkLoadArg (.assign {} (.ident n) {} b!"=" false (.string m))

abbrev ArgG (x : Expr) (as : List ATok) : Prop := Gen as (.n .argument) (SE x)
abbrev KvG (x : Expr) (as : List ATok) : Prop := Gen as (.n .keyvalue) (SE x)
abbrev ParamG (ty : Bool) (x : Expr) (as : List ATok) : Prop := Gen as (.n (if ty then .parameterType else .parameter)) (SE x)
abbrev AnyG (x : Expr) (as : List ATok) : Prop := Gen as (.n (.any 2)) (SE x)

/-- what the printer does with subexpressions -/
structure PrOK (pr : Pr) : Prop where
  keep : ∀ e o st, Keep st (pr e o st)
  ident : ∀ (n : IdentN) o st, CN n.comments → Clean st → Adds st (pr (.ident n) o st) (· = n.name)
  str : ∀ (n : StringN) o b st, CN n.comments → (n.token = [] ∨ Props.Quote.LexedToken n.token) → Clean st →
    Adds st (pr (.string n) o st) (YP b (fun as => ∃ t, as = [⟨K.string, t, n.value, n.triple⟩]))
  ok : ∀ e o b st, OkN e → o ≤ 14 → Clean st → Dep b st e → Adds st (pr e o st) (Y b (fits e o) (SE e))
  el : ∀ x st, Ok x → Clean st → (NB x ∨ FreshC st) → Adds st (pr x 0 st) (El true AnyG x)
  load : ∀ x st, OkLoadArg x → Clean st → (NB x ∨ FreshC st) → Adds st (pr x 0 st) (El true LoadElem x)
  arg : ∀ x st, OkArg x → Clean st → (NB x ∨ FreshC st) → Adds st (pr x 0 st) (El true ArgG x)
  typed : ∀ c n t o b st, CN c → CN n.comments → Name n.name → OkN t → Clean st → Dep b st (.typedIdent c n t) →
    Adds st (pr (.typedIdent c n t) o st) (YP b (fun as => ∃ as', as = W K.ident n.name :: (W 58 b!":" :: as') ∧ AnyG t as'))
  param : ∀ ty x b st, OkParam ty x → (NB x ∨ b = true ∧ FreshC st) → Clean st → Dep b st x → Adds st (pr x 0 st) (El b (ParamG ty) x)
  kv : ∀ x st, OkKV x → Clean st → (NB x ∨ FreshC st) → Adds st (pr x 0 st) (El true KvG x)
  clause : ∀ x st, OkClause x → Clean st → (NB x ∨ FreshC st) → Adds st (pr x 0 st) (El true ClauseG x)
  vars : ∀ x b st, OkVarsN x → Clean st → Dep b st x → Adds st (pr x 0 st) (Y b .loopVars (SE x))
  expr : ∀ x o b st, OkExprN x → o ≤ 2 → Clean st → Dep b st x → Adds st (pr x o st) (Y b .expr (SE x))

theorem Ok.co {e : Expr} (h : Ok e) : CO e.comments := by cases h <;> assumption
theorem Ok.isNil {e : Expr} (h : Ok e) : e.isNil = false := by cases h <;> rfl
theorem OkN.isNil {e : Expr} (h : OkN e) : e.isNil = false := h.ok.isNil
theorem OkArg.isNil {e : Expr} (h : OkArg e) : e.isNil = false := by
  cases h <;> first | rfl | skip
  rename_i h; exact h.isNil
theorem OkParam.isNil {ty} {e : Expr} (h : OkParam ty e) : e.isNil = false := by cases h <;> rfl
theorem OkKV.isNil {e : Expr} (h : OkKV e) : e.isNil = false := by cases h; rfl
theorem OkExpr.isNil {e : Expr} (h : OkExpr e) : e.isNil = false := by
  cases h <;> first | rfl | skip
  rename_i h; exact h.isNil

section
variable {ft : FileType} {pr : Pr} {cm cm' : Comments} (H : PrOK pr)
include H

/-! ## Subexpressions -/

theorem PrOK.any {e : Expr} {o : Nat} {b : Bool} {st : St} (he : OkN e) (ho : o ≤ 2) (hc : Clean st) (hd : Dep b st e) :
    Adds st (pr e o st) (Y b (.any 2) (SE e)) :=
  (H.ok e o b st he (by omega) hc hd).mono (fun _ q => q.mono (fun _ g => fits_any ho he.sh g))

/-- the base of a suffix -/
theorem PrOK.base {x : Expr} {b : Bool} {st : St} (he : OkN x) (hx : isCond x = false) (hc : Clean st) (hd : Dep b st x) :
    Adds st (pr x 14 st) (Y b .primaryExpr (SE x)) :=
  (H.ok x 14 b st he (by omega) hc hd).mono (fun _ q => q.mono (fun _ g => fits14 hx he.sh g))

/-! ## Brackets -/

theorem p_list {s l en fm b st} (he : ComsOK en.comments.before) (hl : ∀ a ∈ l, Ok a) (hc : Clean st) :
    Adds st (seq ft pr b!"[" b!"]" s l (some en) .list false fm st) (Y b .primary (SE (.list cm s l en fm))) := by
  refine (seq_spec (elem := AnyG) (m := .list) (o := 91) (c := 93) (by decide) (.inr (.inl rfl)) (fun x hx => (hl x hx).isNil) (by rintro _ ⟨⟩; exact he) (fun h => by cases h)
    (fun x hx st hc hf => H.el x st (hl x hx) hc hf) H.keep st hc).mono ?_
  rintro _ ⟨s1, as, rfl, hs⟩
  obtain ⟨e1, e2⟩ := group_ends (s := s1) (o := 91) (cl := 93) (.inr (.inl rfl)) (.inr (.inl rfl))
  exact ⟨e1, e2, _, lx_group (.inr (.inl rfl)) (.inr (.inl rfl)) hs.lex, g_list hs.all⟩

theorem p_set {s l en fm b st} (he : ComsOK en.comments.before) (hn : l ≠ []) (hl : ∀ a ∈ l, Ok a) (hc : Clean st) :
    Adds st (seq ft pr b!"{" b!"}" s l (some en) .list false fm st) (Y b .primary (SE (.set cm s l en fm))) := by
  refine (seq_spec (elem := AnyG) (m := .list) (o := 123) (c := 125) (by decide) (.inr (.inr rfl)) (fun x hx => (hl x hx).isNil) (by rintro _ ⟨⟩; exact he) (fun h => by cases h)
    (fun x hx st hc hf => H.el x st (hl x hx) hc hf) H.keep st hc).mono ?_
  rintro _ ⟨s1, as, rfl, hs⟩
  obtain ⟨e1, e2⟩ := group_ends (s := s1) (o := 123) (cl := 125) (.inr (.inr rfl)) (.inr (.inr rfl))
  exact ⟨e1, e2, _, lx_group (.inr (.inr rfl)) (.inr (.inr rfl)) hs.lex, g_set hn hs.all⟩

theorem p_tuple {s l en fc fm b st} (he : ComsOK en.comments.before) (hl : ∀ a ∈ l, Ok a) (hc : Clean st) :
    Adds st (seq ft pr b!"(" b!")" s l (some en) .tuple fc fm st) (Y b .primary (SE (.tuple cm false s l en fc fm))) := by
  refine (seq_spec (elem := AnyG) (m := .tuple) (o := 40) (c := 41) (by decide) (.inl rfl) (fun x hx => (hl x hx).isNil) (by rintro _ ⟨⟩; exact he) (fun h => by cases h)
    (fun x hx st hc hf => H.el x st (hl x hx) hc hf) H.keep st hc).mono ?_
  rintro _ ⟨s1, as, rfl, hs⟩
  obtain ⟨e1, e2⟩ := group_ends (s := s1) (o := 40) (cl := 41) (.inl rfl) (.inl rfl)
  exact ⟨e1, e2, _, lx_group (.inl rfl) (.inl rfl) hs.lex, g_tuple hs.all⟩

theorem p_dict {s l en fm b st} (he : ComsOK en.comments.before) (hl : ∀ a ∈ l, OkKV a) (hc : Clean st) :
    Adds st (seq ft pr b!"{" b!"}" s l (some en) .dict false fm st) (Y b .primary (SE (.dict cm s l en fm))) := by
  refine (seq_spec (elem := KvG) (m := .dict) (o := 123) (c := 125) (by decide) (.inr (.inr rfl)) (fun x hx => (hl x hx).isNil) (by rintro _ ⟨⟩; exact he) (fun h => by cases h)
    (fun x hx st hc hf => H.kv x st (hl x hx) hc hf) H.keep st hc).mono ?_
  rintro _ ⟨s1, as, rfl, hs⟩
  obtain ⟨e1, e2⟩ := group_ends (s := s1) (o := 123) (cl := 125) (.inr (.inr rfl)) (.inr (.inr rfl))
  exact ⟨e1, e2, _, lx_group (.inr (.inr rfl)) (.inr (.inr rfl)) hs.lex, g_dict hs.all⟩

theorem p_paren {s x en fm b st} (he : ComsOK en.comments.before) (hx : Ok x) (hc : Clean st) :
    Adds st (seq ft pr b!"(" b!")" s [x] (some en) .paren false fm st) (Y b .primary (SE (.paren cm s x en fm))) := by
  have hl : ∀ a ∈ [x], Ok a := by intro a ha; rw [List.mem_singleton.1 ha]; exact hx
  refine (seq_spec (elem := AnyG) (m := .paren) (o := 40) (c := 41) (by decide) (.inl rfl) (fun x hx => (hl x hx).isNil) (by rintro _ ⟨⟩; exact he) (fun h => by cases h)
    (fun x hx st hc hf => H.el x st (hl x hx) hc hf) H.keep st hc).mono ?_
  rintro _ ⟨s1, as, rfl, hs⟩
  obtain ⟨e1, e2⟩ := group_ends (s := s1) (o := 40) (cl := 41) (.inl rfl) (.inl rfl)
  refine ⟨e1, e2, _, lx_group (.inl rfl) (.inl rfl) hs.lex, (g_paren hs.all).mono ?_⟩
  rintro v ⟨c, p, x', e, fm, e1, e2⟩
  unfold SE; rw [e1]
  exact Same.paren _ _ _ _ _ _ _ _ _ _ e2

theorem p_call {x ls l en fc fc' fm b st} (he : ComsOK en.comments.before) (hx : OkN x) (hcond : isCond x = false) (hl : ∀ a ∈ l, OkArg a) (hc : Clean st)
    (hd : Dep b st x) :
    Adds st (seq ft pr b!"(" b!")" ls l (some en) .call fc' fm (pr x precSuffix st)) (Y b .primary (SE (.call cm x ls l en fc fm))) := by
  refine (H.base hx hcond hc hd).trans (fun hc' => seq_spec (elem := ArgG) (m := .call) (o := 40) (c := 41) (by decide) (.inl rfl)
    (fun x hx => (hl x hx).isNil) (by rintro _ ⟨⟩; exact he) (fun h => by cases h) (fun x hx st hc hf => H.arg x st (hl x hx) hc hf) H.keep _ hc') ?_
  rintro s0 _ ⟨q1, q2, as0, q3, q4⟩ ⟨s1, as, rfl, hs⟩
  obtain ⟨e1, e2⟩ := group_ends (s := s1) (o := 40) (cl := 41) (.inl rfl) (.inl rfl)
  exact ⟨q1.app, e2.app, _, fun c hc => Lx.appT q3 follow40 (lx_group (.inl rfl) (.inl rfl) hs.lex c hc), g_call q4 hs.all⟩

omit H in
theorem loadArgs_ok : ∀ (fs ts : List IdentN), (∀ n ∈ fs, CN n.comments) → (∀ q ∈ fs.zip ts, q.1.name = q.2.name ∧ ComsOK q.2.comments.before ∨ Name q.2.name ∧ CN q.2.comments) →
    ∀ x ∈ loadArgs fs ts, OkLoadArg x := by
  intro fs
  induction fs with
  | nil => intro ts _ _ x hx; cases hx
  | cons f fs ih =>
    intro ts h1 h3 x hx
    cases ts with
    | nil => cases hx
    | cons t ts =>
      rcases List.mem_cons.1 hx with rfl | hx
      · have hf := h1 f (by simp)
        have ht := h3 (f, t) (by simp)
        by_cases hn : f.name = t.name
        · rw [if_pos hn]
          refine OkLoadArg.string _ ⟨?_, hf.2⟩ (.inl rfl)
          rcases ht with h | h
          · exact h.2
          · exact h.2.co.1
        · rw [if_neg hn]
          rcases ht with h | h
          · exact absurd h.1 hn
          · exact OkLoadArg.named _ _ h.2 h.1 hf rfl
      · exact ih ts (fun n hn => h1 n (by simp [hn])) (fun q hq => h3 q (by simp [hq])) x hx

theorem p_load {p m fs ts r fc b st} (hr : ComsOK r.comments.before) (hm : CO m.comments) (hmt : m.token = [] ∨ Props.Quote.LexedToken m.token) (hn : fs ≠ [])
    (hlen : fs.length = ts.length) (h1 : ∀ n ∈ fs, CN n.comments) (h3 : ∀ q ∈ fs.zip ts, q.1.name = q.2.name ∧ ComsOK q.2.comments.before ∨ Name q.2.name ∧ CN q.2.comments)
    (hc : Clean st) :
    Adds st (seq ft pr b!"(" b!")" p (.string m :: loadArgs fs ts) (some r) .load fc false (emit b!"load" st)) (Y b .primary (SE (.load cm p m fs ts r fc))) := by
  have hl : ∀ x ∈ Expr.string m :: loadArgs fs ts, OkLoadArg x := by
    intro x hx
    rcases List.mem_cons.1 hx with rfl | hx
    · exact .string _ hm hmt
    · exact loadArgs_ok fs ts h1 h3 x hx
  have h0 : Adds st (emit b!"load" st) (· = b!"load") := Adds.emit0 hc rfl
  refine h0.trans (fun hc' => seq_spec (elem := LoadElem) (m := .load) (o := 40) (c := 41) (by decide) (.inl rfl)
    (fun x hx => by cases hl x hx <;> rfl) (by rintro _ ⟨⟩; exact hr) (fun h => by cases h) (fun x hx st hc hf => H.load x st (hl x hx) hc hf) H.keep _ hc') ?_
  rintro _ _ rfl ⟨s1, as, rfl, hs⟩
  obtain ⟨e1, e2⟩ := group_ends (s := s1) (o := 40) (cl := 41) (.inl rfl) (.inl rfl)
  refine ⟨⟨108, _, rfl, by unfold Start; decide⟩, e2.app, _, fun c hc => lx_kw (k := K.load) ⟨⟨_, _, rfl, by decide, by decide⟩, by decide, by decide⟩ follow40
    (lx_group (.inl rfl) (.inl rfl) hs.lex c hc), g_load hlen hn hs.all⟩

/-! ## Suffixes -/

theorem p_index {x p y en b st} (hx : OkN x) (hcond : isCond x = false) (hy : OkExprN y) (hc : Clean st) (hd : Dep b st x) :
    Adds st (emit b!"]" (pr y 0 (emit b!"[" (pr x precSuffix st)))) (Y b .primary (SE (.index cm x p y en))) := by
  have h1 := (H.base hx hcond hc hd).emit (t := b!"[") (R := fun s => ∃ s0, s = s0 ++ [91] ∧ Y b .primaryExpr (SE x) s0) (fun s q => ⟨s, rfl, q⟩)
  have h2 := h1.trans (fun hc' => H.expr y 0 true _ hy (by omega) hc' (dep_true _ _)) (R := fun s => ∃ s0 s1, s = s0 ++ 91 :: s1 ∧ Y b .primaryExpr (SE x) s0 ∧ Y true .expr (SE y) s1)
    (by rintro _ s2 ⟨s0, rfl, q⟩ r; exact ⟨s0, s2, by simp, q, r⟩)
  refine h2.emit ?_
  rintro _ ⟨s0, s1, rfl, ⟨q1, q2, as0, q3, q4⟩, _, _, as1, r3, r4⟩
  obtain ⟨e1, e2⟩ := group_ends (s := s1) (o := 91) (cl := 93) (.inr (.inl rfl)) (.inr (.inl rfl))
  refine ⟨?_, ?_, _, fun c hc => ?_, g_index q4 r4⟩
  · rw [List.append_assoc]; exact q1.app
  · rw [List.append_assoc]; exact e2.app
  · rw [List.append_assoc]
    exact Lx.appT q3 follow91 (lx_group (.inr (.inl rfl)) (.inr (.inl rfl)) r3 c hc)

omit H in
/-- an optional part of a slice -/
theorem p_opt {e : Expr} {st : St} {P : Bytes → Prop} {X : FNT} {st0 : St} (h0 : Adds st0 st P) (hn : Gen [] (.n X) (SE .nil))
    (h : e.isNil = false → Clean st → Adds st (pr e 0 st) (Y true X (SE e))) :
    Adds st0 (if e.isNil then st else pr e 0 st) (fun s => ∃ s0 s1, s = s0 ++ s1 ∧ P s0 ∧ ∃ as, T true s1 as ∧ Gen as (.n X) (SE e)) := by
  cases he : e.isNil with
  | true =>
    rw [isNil_eq he]
    simp only [if_true]
    exact h0.mono (fun s p => ⟨s, [], by simp, p, [], fun c _ => Lx.nil .., hn⟩)
  | false =>
    simp only [Bool.false_eq_true, if_false]
    exact h0.trans (fun hc => h he hc) (fun s0 s1 p ⟨_, _, q⟩ => ⟨s0, s1, rfl, p, q⟩)

theorem p_slice {x p fr c1 to c2 sp en b st} (hx : OkN x) (hcond : isCond x = false) (hfr : fr.isNil = false → OkExprN fr) (hto : to.isNil = false → OkN to)
    (hst : sp.isNil = false → OkN sp) (hc2 : c2.byte = 0 → sp.isNil) (hc : Clean st) (hd : Dep b st x) :
    Adds st (
      let st := emit b!"[" (pr x precSuffix st)
      let st := if fr.isNil then st else pr fr 0 st
      let st := emit b!":" st
      let st := if to.isNil then st else pr to 0 st
      let st := if c2.byte ≠ 0 then
          let st := emit b!":" st
          if sp.isNil then st else pr sp 0 st
        else st
      emit b!"]" st) (Y b .primary (SE (.slice cm x p fr c1 to c2 sp en))) := by
  dsimp only
  have h1 := (H.base hx hcond hc hd).emit (t := b!"[") (R := fun s => ∃ s0, s = s0 ++ [91] ∧ Y b .primaryExpr (SE x) s0) (fun s q => ⟨s, rfl, q⟩)
  have h2 := p_opt h1 g_exprNone (fun hn hc' => (H.expr fr 0 true _ (hfr hn) (by omega) hc' (dep_true _ _)).mono (fun _ q => q.mono (fun _ g => g_exprSome g)))
  have h3 := h2.emit (t := b!":") (R := fun s => ∃ s0 s1 as1, s = s0 ++ 91 :: (s1 ++ [58]) ∧ Y b .primaryExpr (SE x) s0 ∧ T true s1 as1 ∧ Gen as1 (.n .exprOpt) (SE fr)) (by
    rintro _ ⟨_, s1, rfl, ⟨s0, rfl, q⟩, as1, r1, r2⟩; exact ⟨s0, s1, as1, by simp, q, r1, r2⟩)
  have tst : ∀ {e : Expr} {st : St}, (e.isNil = false → OkN e) → e.isNil = false → Clean st → Adds st (pr e 0 st) (Y true .testOpt (SE e)) := by
    intro e st he hn hc'
    exact (H.any (he hn) (Nat.zero_le 2) hc' (dep_true _ _)).mono (fun _ q => q.mono (fun _ g => g_testSome g))
  have h4 := p_opt h3 g_testNone (fun hn hc' => tst hto hn hc')
  by_cases hb : c2.byte = 0
  · rw [if_neg (by simp [hb])]
    rw [isNil_eq (hc2 hb)]
    refine h4.emit ?_
    rintro _ ⟨_, s2, rfl, ⟨s0, s1, as1, rfl, ⟨q1, q2, as0, q3, q4⟩, r1, r2⟩, as2, w1, w2⟩
    obtain ⟨e1, e2⟩ := group_ends (s := s1 ++ 58 :: s2) (o := 91) (cl := 93) (.inr (.inl rfl)) (.inr (.inl rfl))
    have hin : T true (s1 ++ 58 :: s2) (as1 ++ W 58 b!":" :: as2) := fun c hc => Lx.appT r1 follow58 (lx_colon (w1 c hc))
    have e : s0 ++ 91 :: (s1 ++ [58]) ++ s2 ++ b!"]" = s0 ++ (91 :: ((s1 ++ 58 :: s2) ++ [93])) := by simp
    rw [e]
    refine ⟨q1.app, e2.app, _, fun c hc => Lx.appT q3 follow91 (lx_group (.inr (.inl rfl)) (.inr (.inl rfl)) hin c hc), ?_⟩
    exact (g_slice1 (c := cm) (p := p) (c1 := c1) (e := en) hb q4 r2 w2).cast (by simp)
  · rw [if_pos hb]
    have h5 := h4.emit (t := b!":") (R := fun s => ∃ s0 s1 s2 as1 as2, s = s0 ++ 91 :: (s1 ++ 58 :: (s2 ++ [58])) ∧ Y b .primaryExpr (SE x) s0 ∧ T true s1 as1 ∧ Gen as1 (.n .exprOpt) (SE fr) ∧
      T true s2 as2 ∧ Gen as2 (.n .testOpt) (SE to)) (by
      rintro _ ⟨_, s2, rfl, ⟨s0, s1, as1, rfl, q, r1, r2⟩, as2, w1, w2⟩; exact ⟨s0, s1, s2, as1, as2, by simp, q, r1, r2, w1, w2⟩)
    have h6 := p_opt h5 g_testNone (fun hn hc' => tst hst hn hc')
    refine h6.emit ?_
    rintro _ ⟨_, s3, rfl, ⟨s0, s1, s2, as1, as2, rfl, ⟨q1, q2, as0, q3, q4⟩, r1, r2, w1, w2⟩, as3, z1, z2⟩
    obtain ⟨e1, e2⟩ := group_ends (s := s1 ++ 58 :: (s2 ++ 58 :: s3)) (o := 91) (cl := 93) (.inr (.inl rfl)) (.inr (.inl rfl))
    have hin : T true (s1 ++ 58 :: (s2 ++ 58 :: s3)) (as1 ++ W 58 b!":" :: (as2 ++ W 58 b!":" :: as3)) :=
      fun c hc => Lx.appT r1 follow58 (lx_colon (Lx.appT w1 follow58 (lx_colon (z1 c hc))))
    have e : s0 ++ 91 :: (s1 ++ 58 :: (s2 ++ [58])) ++ s3 ++ b!"]" = s0 ++ (91 :: ((s1 ++ 58 :: (s2 ++ 58 :: s3)) ++ [93])) := by simp
    rw [e]
    refine ⟨q1.app, e2.app, _, fun c hc => Lx.appT q3 follow91 (lx_group (.inr (.inl rfl)) (.inr (.inl rfl)) hin c hc), ?_⟩
    exact (g_slice2 (c := cm) (p := p) (c1 := c1) (e := en) hb q4 r2 w2 z2).cast (by simp)

theorem p_dot {x dp np name b st} (hx : OkN x) (hcond : isCond x = false) (hint : isInt x = false) (hn : Name name) (hc : Clean st)
    (hd : Dep b st (.dot cm x dp np name)) :
    Adds st (let st := pr x precSuffix st
      if differentLines np x.endPos then
        let st := emit (b!"." ++ name) (breakline { st with margin := st.margin + listIndentation })
        { st with margin := st.margin - listIndentation }
      else emit (b!"." ++ name) st) (Y b .primary (SE (.dot cm x dp np name))) := by
  dsimp only
  have hdx : Dep b st x := by
    intro hb
    rcases hd hb with ⟨h1, h2⟩ | h
    · exact .inl ⟨h1, h2⟩
    · unfold tight at h; simp only [Bool.and_eq_true] at h; exact .inr h.2
  have h1 : Adds st (pr x precSuffix st) (Y b .primary (SE x)) :=
    (H.ok x 14 b st hx (by omega) hc hdx).mono (fun _ q => q.mono (fun _ g => fits14' hcond hint hx.sh g))
  obtain ⟨n1, n2⟩ := name_text hn
  have hdot : T b (b!"." ++ name) [W 46 b!".", W K.ident name] := fun c hc => lx_dot (t_name hn c hc)
  cases hl : differentLines np x.endPos with
  | false =>
    simp only [Bool.false_eq_true, if_false]
    refine h1.emit ?_
    rintro s ⟨q1, q2, as, q3, q4⟩
    exact ⟨q1.app, (n2.cons).app, _, fun c hc => Lx.appT q3 follow46 (hdot c hc), g_dot q4⟩
  | true =>
    simp only [if_true]
    have h1' : Adds st { pr x precSuffix st with margin := (pr x precSuffix st).margin + listIndentation } (Y b .primary (SE x)) := h1
    have hdep : (pr x precSuffix st).depth = st.depth := (H.keep _ _ _).1
    have h2 := h1'.breakline (R := fun s => ∃ s1 t esc, s = s1 ++ t ∧ Y b .primary (SE x) s1 ∧ Brk esc t ∧ (b = false → esc = true)) (fun s q => q.2.1) (by
      rintro s t q ht
      refine ⟨s, t, _, rfl, q, ht, fun hb => ?_⟩
      rcases hd hb with ⟨h1, h2⟩ | h
      · show decide ((pr x precSuffix st).depth = 0) = true
        rw [hdep, h1]; rfl
      · unfold tight at h; rw [hl] at h; cases h)
    have h3 := h2.emit (t := b!"." ++ name) (R := Y b .primary (SE (.dot cm x dp np name))) (by
      rintro _ ⟨s, t, esc, rfl, ⟨q1, q2, as, q3, q4⟩, ht, he⟩
      refine ⟨(q1.app).app, (n2.cons).app, _, fun c hc => ?_, g_dot q4⟩
      rw [List.append_assoc]
      exact Lx.appT q3 (brk_head ht) (lx_brk he ht (hdot c hc)))
    exact h3

/-! ## Operators -/

omit H in
theorem dep_sub {b : Bool} {st st1 : St} {e x : Expr} (hd : Dep b st e) (h : st1.depth = st.depth) (h1 : tupleTight e = true → tupleTight x = true) (h2 : tight e = true → tight x = true) :
    Dep b st1 x := fun hb => by
  rcases hd hb with ⟨a, c⟩ | c
  · exact .inl ⟨h.trans a, h1 c⟩
  · exact .inr (h2 c)

theorem p_unary {p op x outer b st} (hop : op ∈ unOps) (hx : OkN x) (hcond : isCond x = false) (hc : Clean st) (hd : Dep b st (.unary cm p op x)) :
    Adds st (withParen precUnary outer (fun st =>
      let st := if op = b!"not" then emit b!"not " st else emit op st
      if x.isNil then st else pr x precSuffix st) st) (Y b (fits (.unary cm p op x) outer) (SE (.unary cm p op x))) := by
  refine withParen_spec hc hd ?_ (fun as g => test_any2 (test_up (by omega) (show 2 ≤ 13 by omega) (by omega) g))
  intro b' st1 hc1 hd1
  dsimp only
  rw [hx.isNil]
  simp only [Bool.false_eq_true, if_false]
  have hb : ∀ st2, Clean st2 → st2.depth = st1.depth → Adds st2 (pr x precSuffix st2) (Y b' .primaryExpr (SE x)) :=
    fun st2 hc2 he => H.base hx hcond hc2 (dep_sub hd1 he (fun h => h) (fun h => h))
  have sym : ∀ (t : Bytes), t = op → (∀ c, Start c → TextTok t c (W (unKind t) t)) → depthChange (unKind t) = 0 → StartOK t →
      Adds st1 (pr x precSuffix (emit t st1)) (Y b' (.test 13 false) (SE (.unary cm p op x))) := by
    rintro t rfl ht hk hs
    refine (Adds.emit0 (R := (· = t)) hc1 rfl).trans (fun hc' => hb _ hc' rfl) ?_
    rintro _ s2 rfl ⟨q1, q2, as, q3, q4⟩
    refine ⟨hs.app, q2.app, _, fun c hc => ?_, g_unary hop q4⟩
    obtain ⟨y, r, rfl, hy⟩ := q1
    exact Lx.pre (ht y hy) hk (q3 c hc)
  have hop' := hop
  simp only [unOps, List.mem_cons, List.not_mem_nil, or_false] at hop'
  rcases hop' with rfl | rfl | rfl | rfl
  · rw [if_pos rfl]
    refine (Adds.emit0 (R := (· = b!"not ")) hc1 rfl).trans (fun hc' => hb _ hc' rfl) ?_
    rintro _ s2 rfl ⟨q1, q2, as, q3, q4⟩
    refine ⟨⟨110, _, rfl, by unfold Start; decide⟩, q2.app, _, fun c hc => ?_, g_unary hop q4⟩
    exact lx_kw (k := K.not) (t := b!"not") ⟨⟨_, _, rfl, by decide, by decide⟩, by decide, by decide⟩ follow32 (Lx.sp (q3 c hc))
  · rw [if_neg (by decide)]
    exact sym b!"-" rfl (fun c h => tok_minus (start_ne h).1 (start_ne h).2.2.1) (by decide) ⟨45, [], rfl, by unfold Start; decide⟩
  · rw [if_neg (by decide)]
    exact sym b!"+" rfl (fun c h => tok_plus (start_ne h).1) (by decide) ⟨43, [], rfl, by unfold Start; decide⟩
  · rw [if_neg (by decide)]
    exact sym b!"~" rfl (fun c h => tok_tilde c) (by decide) ⟨126, [], rfl, by unfold Start; decide⟩

omit H in
theorem lb_dep {b : Bool} {st : St} {x : Expr} {c p op lb y} (hd : Dep b st (.binary c x p op lb y)) : lb = true → b = false → st.depth = 0 := by
  intro hl hb
  rcases hd hb with ⟨h, _⟩ | h
  · exact h
  · unfold tight at h; rw [hl] at h; cases h

omit H in
theorem bin_dep1 {b : Bool} {st st1 : St} {x : Expr} {c p op lb y} (hd : Dep b st (.binary c x p op lb y)) (h : st1.depth = st.depth) : Dep b st1 x :=
  dep_sub hd h (fun h => by unfold tupleTight at h; simp only [Bool.and_eq_true] at h; exact h.1) (fun h => by unfold tight at h; simp only [Bool.and_eq_true] at h; exact h.1.2)

omit H in
theorem bin_dep2 {b : Bool} {st st1 : St} {x : Expr} {c p op lb y} (hd : Dep b st (.binary c x p op lb y)) (h : st1.depth = st.depth) : Dep b st1 y :=
  dep_sub hd h (fun h => by unfold tupleTight at h; simp only [Bool.and_eq_true] at h; exact h.2) (fun h => by unfold tight at h; simp only [Bool.and_eq_true] at h; exact h.2)

theorem p_binary {x p op lb y outer b st} (hop : op ∈ binOps) (hx : OkN x) (hcx : isCond x = false) (hy : OkN y) (hcy : isCond y = false) (hc : Clean st)
    (hd : Dep b st (.binary cm x p op lb y)) :
    Adds st (withParen (opPrec op) outer (fun st =>
      let m := st.margin
      let st := if lb then { st with margin := indent st } else st
      let st := emit (b!" " ++ op) (pr x (opPrec op) st)
      let st := if lb then breakline st else emit b!" " st
      { pr y (opPrec op + 1) st with margin := m }) st) (Y b (fits (.binary cm x p op lb y) outer) (SE (.binary cm x p op lb y))) := by
  obtain ⟨h4, h12⟩ := opPrec_bin hop
  have hf : fits (.binary cm x p op lb y) outer = if opPrec op < outer then .primary else .test (opPrec op) false := by
    unfold fits; simp only; rw [if_neg (show ¬ opPrec op = 0 by omega)]
  rw [hf]
  refine withParen_spec hc hd ?_ (fun as g => test_any2 (test_up (by omega) (show 2 ≤ opPrec op by omega) (by omega) g))
  intro b' st1 hc1 hd1
  refine (infix_spec (P1 := fun as => Gen as (.n (.test (opPrec op) false)) (SE x)) (P2 := fun as => Gen as (.n (.test (opPrec op + 1) false)) (SE y)) hc1 H.keep
    (by simp [allOps, hop]) (fun st2 hc2 he => ?_) (fun st2 hc2 he => ?_) (lb_dep hd1)).mono ?_
  · exact (H.ok x _ b' st2 hx (by omega) hc2 (bin_dep1 hd1 he)).mono (fun _ q => q.mono (fun _ g => fits_op h4 (by omega) hcx hx.sh g))
  · exact (H.ok y _ b' st2 hy (by omega) hc2 (bin_dep2 hd1 he)).mono (fun _ q => q.mono (fun _ g => fits_op (by omega) (by omega) hcy hy.sh g))
  · rintro s ⟨q1, q2, as1, as2, q3, q4, q5⟩
    exact ⟨q1, q2, _, q3, g_binary hop q4 q5⟩

theorem p_is {x p op lb y outer b st} (hop : op ∈ isOps) (hx : OkN x) (hcx : isCond x = false) (hox : openEnd x = false) (hy : OkN y) (hcy : isCond y = false)
    (hyop : (op = b!"is" ∧ isNot y = false) ∨ (op = b!"is not" ∧ isBin y = false)) (hc : Clean st) (hd : Dep b st (.binary cm x p op lb y)) :
    Adds st (withParen (opPrec op) outer (fun st =>
      let m := st.margin
      let st := if lb then { st with margin := indent st } else st
      let st := emit (b!" " ++ op) (pr x (opPrec op) st)
      let st := if lb then breakline st else emit b!" " st
      { pr y (opPrec op + 1) st with margin := m }) st) (Y b (fits (.binary cm x p op lb y) outer) (SE (.binary cm x p op lb y))) := by
  have h0 := opPrec_is hop
  have hf : fits (.binary cm x p op lb y) outer = if opPrec op < outer then .primary else .test 3 (isLambda y) := by
    unfold fits; simp only; rw [if_pos h0]
  rw [hf]
  refine withParen_spec hc hd ?_ (fun as g => test_any2 (test_up (by omega) (show 2 ≤ 3 by omega) (by omega) g))
  intro b' st1 hc1 hd1
  refine (infix_spec (P1 := fun as => Gen as (.n (.test 3 false)) (SE x)) (P2 := fun as => Gen as (.n (fits y 1)) (SE y)) hc1 H.keep
    (by simp [allOps, hop]) (fun st2 hc2 he => ?_) (fun st2 hc2 he => ?_) (lb_dep hd1)).mono ?_
  · rw [h0]
    refine (H.ok x 0 b' st2 hx (by omega) hc2 (bin_dep1 hd1 he)).mono (fun _ q => q.mono (fun _ g => ?_))
    have := fits0 hcx hx.sh g
    rw [hox] at this
    exact this
  · rw [h0]
    exact H.ok y 1 b' st2 hy (by omega) hc2 (bin_dep2 hd1 he)
  · rintro s ⟨q1, q2, as1, as2, q3, q4, q5⟩
    rcases hyop with ⟨rfl, hn⟩ | ⟨rfl, hn⟩
    · exact ⟨q1, q2, _, q3, g_is hn q4 (fits1 hcy hy.sh q5)⟩
    · exact ⟨q1, q2, _, q3, g_isNot q4 (fits1' hcy hn hy.sh q5)⟩

theorem p_cond {t i te el e b st} (ht : OkN t) (hte : OkN te) (he : OkN e) (hce : isCond e = false) (hc : Clean st) (hd : Dep b st (.cond cm t i te el e)) :
    Adds st (pr e precIfElse (emit b!" else " (pr te precIfElse (emit b!" if " (pr t precIfElse st))))) (Y b (.test 2 false) (SE (.cond cm t i te el e))) := by
  have d1 : Dep b st t := dep_sub hd rfl (fun h => by unfold tupleTight at h; simp only [Bool.and_eq_true] at h; exact h.1.1) (fun h => by unfold tight at h; simp only [Bool.and_eq_true] at h; exact h.1.1)
  have d2 : ∀ st1 : St, st1.depth = st.depth → Dep b st1 te := fun st1 h => dep_sub hd h (fun h => by unfold tupleTight at h; simp only [Bool.and_eq_true] at h; exact h.1.2) (fun h => by unfold tight at h; simp only [Bool.and_eq_true] at h; exact h.1.2)
  have d3 : ∀ st1 : St, st1.depth = st.depth → Dep b st1 e := fun st1 h => dep_sub hd h (fun h => by unfold tupleTight at h; simp only [Bool.and_eq_true] at h; exact h.2) (fun h => by unfold tight at h; simp only [Bool.and_eq_true] at h; exact h.2)
  have k1 : (emit b!" if " (pr t precIfElse st)).depth = st.depth := (H.keep _ _ _).1
  have k2 : (emit b!" else " (pr te precIfElse (emit b!" if " (pr t precIfElse st)))).depth = st.depth := ((H.keep _ _ _).1).trans k1
  have h1 := (H.ok t 3 b st ht (by omega) hc d1).emit (t := b!" if ") (R := fun s => ∃ s1, s = s1 ++ b!" if " ∧ Y b (fits t 3) (SE t) s1) (fun s q => ⟨s, rfl, q⟩)
  have h2 := h1.trans (fun hc' => H.ok te 3 b _ hte (by omega) hc' (d2 _ k1)) (R := fun s => ∃ s1 s2, s = s1 ++ b!" if " ++ s2 ∧ Y b (fits t 3) (SE t) s1 ∧ Y b (fits te 3) (SE te) s2)
    (by rintro _ s2 ⟨s1, rfl, q⟩ r; exact ⟨s1, s2, rfl, q, r⟩)
  have h3 := h2.emit (t := b!" else ") (R := fun s => ∃ s1 s2, s = s1 ++ b!" if " ++ s2 ++ b!" else " ∧ Y b (fits t 3) (SE t) s1 ∧ Y b (fits te 3) (SE te) s2)
    (by rintro _ ⟨s1, s2, rfl, q, r⟩; exact ⟨s1, s2, rfl, q, r⟩)
  refine h3.trans (fun hc' => H.ok e 3 b _ he (by omega) hc' (d3 _ k2)) ?_
  rintro _ s3 ⟨s1, s2, rfl, ⟨q1, q2, as1, q3, q4⟩, ⟨r1, r2, as2, r3, r4⟩⟩ ⟨w1, w2, as3, w3, w4⟩
  have e : s1 ++ b!" if " ++ s2 ++ b!" else " ++ s3 = s1 ++ 32 :: (b!"if" ++ 32 :: (s2 ++ 32 :: (b!"else" ++ 32 :: s3))) := by simp
  rw [e]
  refine ⟨q1.app, ((((w2.cons).app).cons.app).cons.app).cons.app, _, fun c hc => ?_, g_cond (fits3c ht.sh q4) (test_any2 (fits3c hte.sh r4)) (fits3 hce he.sh w4)⟩
  exact Lx.appT q3 follow32 (Lx.sp (lx_kw (k := K.if_) ⟨⟨_, _, rfl, by decide, by decide⟩, by decide, by decide⟩ follow32 (Lx.sp
    (Lx.appT r3 follow32 (Lx.sp (lx_kw (k := K.else_) ⟨⟨_, _, rfl, by decide, by decide⟩, by decide, by decide⟩ follow32 (Lx.sp (w3 c hc))))))))

/-! ## Lambda -/

theorem p_lambdaParams {b : Bool} {d : Nat} : ∀ (ps : List Expr) (first : Bool) (st : St), (∀ a ∈ ps, OkParam false a) → (∀ a ∈ ps, NB a) → Clean st → st.depth = d →
    (∀ a ∈ ps, ∀ st, st.depth = d → Dep b st a) →
    Adds st (lambdaParams pr first ps st) (fun s => (ps = [] ∧ s = [] ∨ EndOK s ∧ ∃ r, s = (if first then 32 else 44) :: r) ∧
      ∃ ass, All2 (ParamG false) ps ass ∧ T b s (if first then joinC ass else ass.flatMap (comma :: ·))) := by
  intro ps
  induction ps with
  | nil =>
    intro first st _ _ hc _ _
    exact (Adds.refl hc).mono (fun s e => ⟨.inl ⟨rfl, e⟩, [], .nil, fun c _ => by rw [e]; cases first <;> exact Lx.nil ..⟩)
  | cons x ps ih =>
    intro first st hp hnb hc hd hdep
    unfold lambdaParams
    dsimp only
    have h0 : Adds st (emit b!" " (if first then st else emit b!"," st)) (· = if first then b!" " else b!", ") := by
      cases first
      · exact (Adds.emit0 (R := (· = b!",")) hc rfl).emit (by rintro _ rfl; rfl)
      · exact Adds.emit0 hc rfl
    have hd0 : (emit b!" " (if first then st else emit b!"," st)).depth = d := by cases first <;> exact hd
    have h1 := h0.trans (fun hc' => H.param false x b _ (hp x (by simp)) (.inl (hnb x (by simp))) hc' (hdep x (by simp) _ hd0)) (R := fun s => ∃ s1, s = (if first then b!" " else b!", ") ++ s1 ∧ El b (ParamG false) x s1)
      (by rintro _ s2 rfl q; exact ⟨s2, rfl, q⟩)
    refine h1.trans (fun hc' => ih false _ (fun a ha => hp a (by simp [ha])) (fun a ha => hnb a (by simp [ha])) hc' (((H.keep _ _ _).1).trans hd0) (fun a ha => hdep a (by simp [ha]))) ?_
    rintro _ s2 ⟨s1, rfl, he, as, ht, hel⟩ ⟨h3, ass, h4, h5⟩
    have hfol : ∀ c, Follow c → Follow (s2.headD c) := by
      intro c hc
      rcases h3 with ⟨_, rfl⟩ | ⟨_, r, rfl⟩
      · exact hc
      · exact follow44
    simp only [Bool.false_eq_true, if_false] at h5
    refine ⟨.inr ⟨?_, ?_⟩, as :: ass, .cons _ _ _ _ hel h4, fun c hc => ?_⟩
    · rcases h3 with ⟨_, rfl⟩ | ⟨h, _⟩
      · rw [List.append_nil]; exact he.app
      · exact h.app
    · cases first <;> exact ⟨_, rfl⟩
    · have hrest := Lx.appT ht (hfol c hc) (h5 c hc)
      cases first
      · have := lx_comma (Lx.sp hrest)
        simpa using this
      · have := Lx.sp hrest
        rw [if_pos rfl, joinC_cons]
        simpa using this

theorem p_lambda {p ps bd outer b st} (hps : ∀ a ∈ ps, OkParam false a) (hnb : ∀ a ∈ ps, NB a) (hb : OkN bd) (hc : Clean st) (hd : Dep b st (.lambda cm p ps [bd])) :
    Adds st (withParen precColon outer (fun st =>
      let st := emit b!": " (lambdaParams pr true ps (emit b!"lambda" st))
      match [bd] with
      | x :: _ => pr x 0 st
      | [] => { st with bad := true }) st) (Y b (fits (.lambda cm p ps [bd]) outer) (SE (.lambda cm p ps [bd]))) := by
  refine withParen_spec hc hd ?_ (fun as g => test_any2 (test_up (by omega) (show 2 ≤ 13 by omega) (by omega) g))
  intro b' st1 hc1 hd1
  dsimp only
  have dps : ∀ a ∈ ps, ∀ st, st.depth = st1.depth → Dep b' st a := by
    intro a ha st2 h2 hb'
    rcases hd1 hb' with ⟨h, h'⟩ | h
    · unfold tupleTight at h'; simp only [Bool.and_eq_true] at h'
      exact .inl ⟨h2.trans h, tupleTightL_mem h'.1 a ha⟩
    · unfold tight at h; simp only [Bool.and_eq_true] at h
      exact .inr (tightL_mem h.1 a ha)
  have db : ∀ st, st.depth = st1.depth → Dep b' st bd := by
    intro st2 h2
    refine dep_sub hd1 h2 (fun h => ?_) (fun h => ?_)
    · unfold tupleTight at h; simp only [Bool.and_eq_true] at h
      exact tupleTightL_mem h.2 bd (by simp)
    · unfold tight at h; simp only [Bool.and_eq_true] at h
      exact tightL_mem h.2 bd (by simp)
  have h0 : Adds st1 (emit b!"lambda" st1) (· = b!"lambda") := Adds.emit0 hc1 rfl
  have k0 : (emit b!"lambda" st1).depth = st1.depth := rfl
  have h1 := h0.trans (fun hc' => p_lambdaParams H ps true (emit b!"lambda" st1) hps hnb hc' k0 dps) (R := fun s => ∃ s1 ass, s = b!"lambda" ++ s1 ∧ (s1 = [] ∨ ∃ r, s1 = 32 :: r) ∧
      All2 (ParamG false) ps ass ∧ T b' s1 (joinC ass)) (by
    rintro _ s1 rfl ⟨h3, ass, h4, h5⟩
    refine ⟨s1, ass, rfl, ?_, h4, h5⟩
    rcases h3 with ⟨_, h⟩ | ⟨_, h⟩
    · exact .inl h
    · exact .inr h)
  have h2 := h1.emit (t := b!": ") (R := fun s => ∃ s1 ass, s = b!"lambda" ++ s1 ++ b!": " ∧ (s1 = [] ∨ ∃ r, s1 = 32 :: r) ∧ All2 (ParamG false) ps ass ∧ T b' s1 (joinC ass))
    (by rintro _ ⟨s1, ass, rfl, h⟩; exact ⟨s1, ass, rfl, h⟩)
  have k1 : (emit b!": " (lambdaParams pr true ps (emit b!"lambda" st1))).depth = st1.depth := (keep_lambda H.keep ps true _).1
  refine h2.trans (fun hc' => H.any hb (Nat.zero_le 2) hc' (db _ k1)) ?_
  rintro _ s2 ⟨s1, ass, rfl, hs1, h4, h5⟩ ⟨q1, q2, as2, q3, q4⟩
  have e : b!"lambda" ++ s1 ++ b!": " ++ s2 = b!"lambda" ++ (s1 ++ 58 :: 32 :: s2) := by simp
  rw [e]
  refine ⟨⟨108, _, rfl, by unfold Start; decide⟩, ((q2.cons).cons.app).app, _, fun c hc => ?_, g_lambda h4 q4⟩
  refine lx_kw (k := K.lambda) ⟨⟨_, _, rfl, by decide, by decide⟩, by decide, by decide⟩ ?_ (Lx.appT h5 follow58 (lx_colon (Lx.sp (q3 c hc))))
  rcases hs1 with rfl | ⟨r, rfl⟩
  · exact follow58
  · exact follow32

/-! ## Comprehensions -/

theorem p_clauses {multi : Bool} : ∀ (cl : List Expr) (st0 st : St) (P : Bytes → Prop), (∀ a ∈ cl, OkClause a) → (multi = true ∧ st.depth ≠ 0 ∨ ∀ a ∈ cl, NB a) → Adds st0 st P →
    (∀ s, P s → EndOK s) →
    Adds st0 (clauseElems pr multi cl st) (fun s => ∃ s0 s1, s = s0 ++ s1 ∧ P s0 ∧ EndOK s ∧ (∀ c, Follow c → Follow (s1.headD c)) ∧ ∃ ass, All2 ClauseG cl ass ∧ T true s1 ass.flatten) := by
  intro cl
  induction cl with
  | nil =>
    intro st0 st P _ _ h0 hp
    exact h0.mono (fun s p => ⟨s, [], by simp, p, hp s p, fun c h => h, [], .nil, fun c _ => Lx.nil ..⟩)
  | cons x cl ih =>
    intro st0 st P hcl hnb h0 hp
    unfold clauseElems
    have h1 : Adds st0 (if multi then breakline st else emit b!" " st) (fun s => ∃ s0 t, s = s0 ++ t ∧ P s0 ∧ (t = [32] ∨ ∃ esc, Brk esc t)) := by
      cases multi
      · exact h0.emit (fun s p => ⟨s, [32], rfl, p, .inl rfl⟩)
      · exact h0.breakline hp (fun s t p ht => ⟨s, t, rfl, p, .inr ⟨_, ht⟩⟩)
    have hfr : NB x ∨ FreshC (if multi then breakline st else emit b!" " st) := by
      rcases hnb with ⟨rfl, hd⟩ | h
      · exact .inr (freshC_breakline hd)
      · exact .inl (h x (by simp))
    have hk : Keep st (pr x 0 (if multi then breakline st else emit b!" " st)) := by
      refine Keep.trans ?_ (H.keep _ _ _)
      cases multi
      · exact ⟨rfl, rfl⟩
      · exact keep_breakline _
    have h2 := h1.trans (fun hc => H.clause x _ (hcl x (by simp)) hc hfr) (R := fun s => ∃ s0 t s1, s = s0 ++ (t ++ s1) ∧ P s0 ∧ (t = [32] ∨ ∃ esc, Brk esc t) ∧ El true ClauseG x s1)
      (by rintro _ s2 ⟨s0, t, rfl, p, ht⟩ q; exact ⟨s0, t, s2, by simp, p, ht, q⟩)
    refine (ih st0 _ _ (fun a ha => hcl a (by simp [ha])) ?_ h2 ?_).mono ?_
    · rcases hnb with ⟨h, hd⟩ | h
      · exact .inl ⟨h, by rw [hk.1]; exact hd⟩
      · exact .inr (fun a ha => h a (by simp [ha]))
    · rintro _ ⟨s0, t, s1, rfl, _, _, he, _⟩
      exact (he.app).app
    · rintro _ ⟨_, s2, rfl, ⟨s0, t, s1, rfl, p, ht, _, as, h3, h4⟩, hend, hf, ass, h5, h6⟩
      refine ⟨s0, t ++ (s1 ++ s2), by simp, p, hend, fun c _ => ?_, as :: ass, .cons _ _ _ _ h4 h5, fun c hc => ?_⟩
      · rcases ht with rfl | ⟨esc, ht⟩
        · exact follow32
        · exact brk_head ht
      · have hr := Lx.appT h3 (hf c hc) (h6 c hc)
        rcases ht with rfl | ⟨esc, ht⟩
        · exact Lx.sp hr
        · exact lx_brk (fun h => by cases h) ht hr

omit H in
theorem listFor_eq (curly : Bool) (body : Expr) (cl : List Expr) (fm : Bool) (e : EndN) (st : St) :
    listFor pr curly body cl fm e st = lfClose curly (lfEnd (fm || !e.comments.before.isEmpty) e (clauseElems pr (fm || !e.comments.before.isEmpty) cl
      (pr body 0 (lfOpen curly (fm || !e.comments.before.isEmpty) st)))) := rfl

theorem p_compr {curly : Bool} {bd : Expr} {cl fm en st} {B : List ATok → Prop} (he : ComsOK en.comments.before)
    (hb : ∀ st, Clean st → (NB bd ∨ FreshC st) → Adds st (pr bd 0 st) (El true (fun _ => B) bd))
    (hcl : ∀ a ∈ cl, OkClause a) (hm : fm = true ∨ en.comments.before ≠ [] ∨ NB bd ∧ ∀ a ∈ cl, NB a) (hc : Clean st) :
    Adds st (listFor pr curly bd cl fm en st) (fun s => ∃ s1 as ass, s = (if curly then 123 else 91) :: (s1 ++ [if curly then 125 else 93]) ∧ T true s1 (as ++ ass.flatten) ∧ B as ∧
      All2 ClauseG cl ass) := by
  rw [listFor_eq]
  have hmu : (fm || !en.comments.before.isEmpty) = true ∨ NB bd ∧ ∀ a ∈ cl, NB a := by
    rcases hm with h | h | h
    · left; rw [h]; rfl
    · left
      have : en.comments.before.isEmpty = false := by simpa using h
      rw [this]; simp
    · exact .inr h
  generalize (fm || !en.comments.before.isEmpty) = mu at hmu ⊢
  have ho32 : (if curly then (123 : UInt8) else 91) ≠ 32 := by cases curly <;> decide
  have h0 : Adds st (emit (if curly then b!"{" else b!"[") { st with depth := st.depth + 1 }) (· = [if curly then 123 else 91]) := by
    cases curly <;> exact Adds.emit0 hc rfl
  have hpos : (lfOpen curly mu st).depth ≠ 0 := by
    cases mu
    · show st.depth + 1 ≠ 0; omega
    · have := (keep_newline { emit (if curly then b!"{" else b!"[") { st with depth := st.depth + 1 } with margin := st.margin + listIndentation }).1
      show (newline _).depth ≠ 0
      have e : (emit (if curly then b!"{" else b!"[") { st with depth := st.depth + 1 }).margin = st.margin := rfl
      rw [e, this]
      show st.depth + 1 ≠ 0; omega
  have hfr : NB bd ∨ FreshC (lfOpen curly mu st) := by
    rcases hmu with rfl | h
    · right; exact freshC_newline _
    · exact .inl h.1
  have h1 : Adds st (lfOpen curly mu st)
      (fun s => ∃ t, s = (if curly then 123 else 91) :: t ∧ (t = [] ∨ NlT t)) := by
    cases mu
    · exact h0.mono (fun s e => ⟨[], e, .inl rfl⟩)
    · exact Adds.newline (st1 := { emit (if curly then b!"{" else b!"[") { st with depth := st.depth + 1 } with margin := st.margin + listIndentation }) h0 (by rintro _ rfl; exact EndOK.single ho32) (by rintro _ t rfl ht; exact ⟨t, rfl, .inr ht⟩)
  generalize lfOpen curly mu st = stb at h1 hfr hpos ⊢
  have h2 := h1.trans (fun hc' => hb _ hc' hfr) (R := fun s => ∃ t s1, s = (if curly then 123 else 91) :: (t ++ s1) ∧ (t = [] ∨ NlT t) ∧ El true (fun _ => B) bd s1)
    (by rintro _ s2 ⟨t, rfl, ht⟩ q; exact ⟨t, s2, rfl, ht, q⟩)
  have hnb : mu = true ∧ (pr bd 0 stb).depth ≠ 0 ∨ ∀ a ∈ cl, NB a := by
    rcases hmu with rfl | h
    · left; exact ⟨rfl, by rw [(H.keep _ _ _).1]; exact hpos⟩
    · exact .inr h.2
  have h3 := p_clauses H (multi := mu) cl st _ _ hcl hnb h2 (by rintro _ ⟨t, s1, rfl, _, he, _⟩; exact (he.app).cons)
  generalize clauseElems pr mu cl (pr bd 0 stb) = stc at h3 ⊢
  have h4 : Adds st (lfEnd mu en stc)
      (fun s => ∃ s1 as ass, s = (if curly then 123 else 91) :: s1 ∧ T true s1 (as ++ ass.flatten) ∧ B as ∧ All2 ClauseG cl ass) := by
    have fin : ∀ (t s1 s2 u : Bytes) (as : List ATok) (ass : List (List ATok)), (t = [] ∨ NlT t) → (u = [] ∨ NlT u) → T true s1 as →
        (∀ c, Follow c → Follow (s2.headD c)) → T true s2 ass.flatten → T true (t ++ (s1 ++ (s2 ++ u))) (as ++ ass.flatten) := by
      intro t s1 s2 u as ass ht hu h1 hf h2 c hc
      have hu' : Lx true u c [] := by
        rcases hu with rfl | hu
        · exact Lx.nil ..
        · exact hu.2.lx
      have hfu : Follow (u.headD c) := by
        rcases hu with rfl | hu
        · exact hc
        · have := hu.head (s := []) (c := c)
          simpa using this
      have h3 : Lx true (s2 ++ u) c ass.flatten := (Lx.appT h2 hfu hu').cast (by simp)
      have hf2 : Follow ((s2 ++ u).headD c) := by
        cases s2 with
        | nil => exact hfu
        | cons x s2 => exact hf c hc
      have h4 := Lx.appT h1 hf2 h3
      rcases ht with rfl | ht
      · exact h4
      · exact ht.2 _ _ _ h4
    cases mu
    · refine h3.mono ?_
      rintro _ ⟨_, s2, rfl, ⟨t, s1, rfl, ht, _, as, r1, r2⟩, _, hf, ass, r3, r4⟩
      refine ⟨t ++ (s1 ++ s2), as, ass, by simp, ?_, r2, r3⟩
      have := fin t s1 s2 [] as ass ht (.inl rfl) r1 hf r4
      simpa using this
    · refine end_in (g := fun st => { st with margin := st.margin - listIndentation }) (fun _ => ⟨rfl, rfl, rfl, rfl⟩) he h3 ?_ ?_
      · rintro _ ⟨_, s2, rfl, _, he, _⟩; exact he
      · rintro _ u ⟨_, s2, rfl, ⟨t, s1, rfl, ht, _, as, r1, r2⟩, _, hf, ass, r3, r4⟩ hu
        exact ⟨t ++ (s1 ++ (s2 ++ u)), as, ass, by simp, fin t s1 s2 _ as ass ht (.inr hu) r1 hf r4, r2, r3⟩
  have h5 := h4.emit (t := if curly then b!"}" else b!"]") (R := fun s => ∃ s1 as ass, s = (if curly then 123 else 91) :: (s1 ++ [if curly then 125 else 93]) ∧ T true s1 (as ++ ass.flatten) ∧ B as ∧
      All2 ClauseG cl ass) (by
    rintro _ ⟨s1, as, ass, rfl, h⟩
    refine ⟨s1, as, ass, ?_, h⟩
    cases curly <;> rfl)
  exact h5

theorem p_listCompr {p bd cl fm en b st} (he : ComsOK en.comments.before) (hb : Ok bd) (hcl : ∀ a ∈ cl, OkClause a) (hf : forFirst cl = true) (ha : clausesApart cl = true) (hm : fm = true ∨ en.comments.before ≠ [] ∨ NB bd ∧ ∀ a ∈ cl, NB a)
    (hc : Clean st) : Adds st (listFor pr false bd cl fm en st) (Y b .primary (SE (.compr cm false p bd cl fm en))) := by
  refine (p_compr H (B := AnyG bd) he (fun st hc hf => H.el _ _ hb hc hf) hcl hm hc).mono ?_
  rintro _ ⟨s1, as, ass, rfl, h1, h2, h3⟩
  obtain ⟨e1, e2⟩ := group_ends (s := s1) (o := 91) (cl := 93) (.inr (.inl rfl)) (.inr (.inl rfl))
  exact ⟨e1, e2, _, lx_group (.inr (.inl rfl)) (.inr (.inl rfl)) h1, g_listCompr h2 (g_clauses h3 hf ha)⟩

theorem p_dictCompr {p bd cl fm en b st} (he : ComsOK en.comments.before) (hb : OkKV bd) (hcl : ∀ a ∈ cl, OkClause a) (hf : forFirst cl = true) (ha : clausesApart cl = true) (hm : fm = true ∨ en.comments.before ≠ [] ∨ NB bd ∧ ∀ a ∈ cl, NB a)
    (hc : Clean st) : Adds st (listFor pr true bd cl fm en st) (Y b .primary (SE (.compr cm true p bd cl fm en))) := by
  refine (p_compr H (B := KvG bd) he (fun st hc hf => H.kv bd st hb hc hf) hcl hm hc).mono ?_
  rintro _ ⟨s1, as, ass, rfl, h1, h2, h3⟩
  obtain ⟨e1, e2⟩ := group_ends (s := s1) (o := 123) (cl := 125) (.inr (.inr rfl)) (.inr (.inr rfl))
  exact ⟨e1, e2, _, lx_group (.inr (.inr rfl)) (.inr (.inr rfl)) h1, g_dictCompr h2 (g_clauses h3 hf ha)⟩

/-! ## Tuples without parentheses -/

abbrev FitG (x : Expr) (as : List ATok) : Prop := Gen as (.n (fits x 0)) (SE x)

theorem p_bare {s l en fc fm b st} (he : en.comments.before = []) (hn : l ≠ []) (hl : ∀ a ∈ l, Ok a) (hbr : ∀ a ∈ l, Bare a) (hd : b = false → ∀ a ∈ l, tight a = true) (hc : Clean st) :
    Adds st (seq ft pr b!"(" b!")" s l (some en) .seq fc fm st) (fun s => StartOK s ∧ EndOK s ∧ ∃ ass, All2 FitG l ass ∧ T b s (joinC ass)) := by
  rw [seq_eq]
  have hfil : l.filter (fun x => !x.isNil) = l := List.filter_eq_self.2 (fun x hx => by simp [(hl x hx).isNil])
  rw [hfil]
  have hcomp : ∀ lv, useCompact ft lv s l (some en) .seq fc fm = true := by
    intro lv
    have h1 : l.any (fun x => !x.comments.before.isEmpty || (!x.comments.suffix.isEmpty && Mode.seq != .def_)) = false := by
      rw [List.any_eq_false]
      intro x hx
      rw [(hbr x hx).1, (hbr x hx).2]
      decide
    unfold useCompact
    rw [h1]
    simp only [he]
    rfl
  rw [hcomp]
  simp only [if_true]
  unfold seqCompact seqOpen seqClose
  simp only [if_true]
  rw [if_neg (by rintro ⟨_, h⟩; cases h)]
  have h0 : Adds st { st with depth := st.depth + 1 } (· = []) := Adds.refl hc
  have h1 := h0.trans (fun hc' => compact_spec (Q := StartOK) (elem := FitG) (b := b) (d := st.depth + 1) (fun _ _ h => h.app) hn (fun x hx st1 hc1 _ =>
    (H.ok x 0 b st1 (.mk _ (hl x hx) (hbr x hx).1) (by omega) hc1 (fun hb => .inr (hd hb x hx))).mono (fun _ ⟨q1, q2, q3⟩ => ⟨q1, q2, q3⟩)) H.keep _ hc' rfl)
    (R := fun s => StartOK s ∧ EndOK s ∧ ∃ ass, All2 FitG l ass ∧ T b s (joinC ass)) (by rintro _ s2 rfl q; exact q)
  exact h1

omit H in
theorem bare_dep {b : Bool} {st : St} {c s l en fc fm} (hd : Dep b st (.tuple c true s l en fc fm)) (hb : b = false) : ∀ a ∈ l, tight a = true := by
  rcases hd hb with ⟨_, h⟩ | h
  · unfold tupleTight at h; exact tightL_mem (by simpa using h)
  · unfold tight at h; exact tightL_mem (by simpa using h)

omit H in
theorem same_ok {x : Expr} {as X} (hx : Ok x) (h : Gen as X (SE x)) : Gen as X (fun v => isBare v.expr = false ∧ Same x v.expr) :=
  h.mono (fun _ q => ⟨same_bare q (sh_bare hx.sh), q⟩)

omit H in
theorem all2_mono {α β : Type} {r r' : α → β → Prop} {l l'} (h : All2 r l l') (hm : ∀ x ∈ l, ∀ y, r x y → r' x y) : All2 r' l l' := by
  induction h with
  | nil => exact .nil
  | cons x y l l' h1 _ ih => exact .cons _ _ _ _ (hm x (by simp) y h1) (ih (fun z hz => hm z (by simp [hz])))

theorem p_bareExpr {s x y l en fc fm b st} (he : en.comments.before = []) (hl : ∀ a ∈ x :: y :: l, Ok a) (hbr : ∀ a ∈ x :: y :: l, Bare a) (hco : ∀ a ∈ y :: l, isCond a = false) (hc : Clean st)
    (hd : Dep b st (.tuple cm true s (x :: y :: l) en fc fm)) :
    Adds st (seq ft pr b!"(" b!")" s (x :: y :: l) (some en) .seq fc fm st) (Y b .expr (SE (.tuple cm true s (x :: y :: l) en fc fm))) := by
  refine (p_bare H he (by simp) hl hbr (fun hb => bare_dep hd hb) hc).mono ?_
  rintro t ⟨q1, q2, ass, q3, q4⟩
  refine ⟨q1, q2, _, q4, ?_⟩
  cases q3 with
  | cons _ a _ ass hx hr =>
    rw [joinC_cons]
    refine (g_exprs (same_ok (hl x (by simp)) (fits_any (Nat.zero_le 2) (hl x (by simp)).sh hx)) (all2_mono hr (fun z hz as h => fits0_3 (hco z hz) (hl z (List.mem_cons_of_mem _ hz)).sh h))).mono ?_
    intro v h
    exact h.se (by simp)

theorem p_bareVars {s x y l en fc fm b st} (he : en.comments.before = []) (hl : ∀ a ∈ x :: y :: l, Ok a) (hbr : ∀ a ∈ x :: y :: l, Bare a) (hco : ∀ a ∈ x :: y :: l, isPrimary a = true) (hc : Clean st)
    (hd : Dep b st (.tuple cm true s (x :: y :: l) en fc fm)) :
    Adds st (seq ft pr b!"(" b!")" s (x :: y :: l) (some en) .seq fc fm st) (Y b .loopVars (SE (.tuple cm true s (x :: y :: l) en fc fm))) := by
  refine (p_bare H he (by simp) hl hbr (fun hb => bare_dep hd hb) hc).mono ?_
  rintro t ⟨q1, q2, ass, q3, q4⟩
  refine ⟨q1, q2, _, q4, ?_⟩
  cases q3 with
  | cons _ a _ ass hx hr =>
    rw [joinC_cons]
    refine (g_vars (same_ok (hl x (by simp)) (fits_var (hco x (by simp)) hx)) (all2_mono hr (fun z hz as h => fits_var (hco z (List.mem_cons_of_mem _ hz)) h))).mono ?_
    intro v h
    exact h.se (by simp)

/-! ## All expressions -/

omit H in
theorem p_float {t : Bytes} {p : Pos} {b : Bool} (h : Float t) : Y b .primary (SE (.literal cm p t)) t := by
  have d46 : StartOK [46] := ⟨46, [], rfl, by unfold Start; decide⟩
  cases h with
  | both a c ha hc =>
    obtain ⟨a1, a2⟩ := int_text ha
    obtain ⟨c1, c2⟩ := int_text hc
    refine ⟨(a1.app).app, c2.app, _, fun x hx => ?_, g_float2⟩
    have := Lx.appT (s2 := 46 :: c) (c := x) (t_int (b := b) ha) follow46 (lx_dot (t_int hc x hx))
    simpa using this
  | left a ha =>
    obtain ⟨a1, a2⟩ := int_text ha
    refine ⟨a1.app, EndOK.app (EndOK.single (by decide)), _, fun x hx => ?_, g_float1⟩
    exact Lx.appT (s2 := [46]) (c := x) (t_int (b := b) ha) follow46 (lx_dot (Lx.nil b x))
  | right c hc =>
    obtain ⟨c1, c2⟩ := int_text hc
    exact ⟨d46.app, c2.app, _, fun x hx => lx_dot (t_int hc x hx), g_float0⟩

omit H in
theorem string_adds {tok v : Bytes} {tr : Bool} {st : St} {P : Bytes → Prop} (htok : tok = [] ∨ Props.Quote.LexedToken tok) (hc : Clean st)
    (h : ∀ s, Props.Quote.GoodLiteral s v tr → P s) :
    Adds st (match Quote.printString tok v tr with | some s => emit s st | none => { st with bad := true }) P := by
  cases hp : Quote.printString tok v tr with
  | none => exact Adds.bad hc rfl
  | some s => exact Adds.emit0 hc (h s (Props.Quote.C03_print_string _ _ _ _ htok hp))

theorem body_ok {f : Nat} {e : Expr} {o : Nat} {b : Bool} {st : St} (he : Ok e) (ho : o ≤ 14) (hc : Clean st) (hd : Dep b st e) :
    Adds st (exprBody ft pr f e o st) (Y b (fits e o) (SE e)) := by
  have sub : ∀ {x : Expr}, (tupleTight e = true → tupleTight x = true) → (tight e = true → tight x = true) → Dep b st x := fun h1 h2 => dep_sub hd rfl h1 h2
  cases he with
  | ident n hco hname =>
    obtain ⟨n1, n2⟩ := name_text hname
    exact Adds.emit0 hc ⟨n1, n2, _, t_name hname, g_name⟩
  | int c p t hco ht =>
    obtain ⟨n1, n2⟩ := int_text ht
    have : fits (.literal c p t) o = .primaryInt := by unfold fits; simp only [int_no_dot ht]; rfl
    rw [this]
    exact Adds.emit0 hc ⟨n1, n2, _, t_int ht, g_int⟩
  | float c p t hco ht =>
    have : fits (.literal c p t) o = .primary := by unfold fits; simp only [float_dot ht]; rfl
    rw [this]
    exact Adds.emit0 hc (p_float ht)
  | string n hco htok =>
    exact string_adds htok hc (fun s hs => ⟨(good_text hs).1, (good_text hs).2, _, t_str hs, g_str⟩)
  | dot c x dp np name hco hx hcx hix hn =>
    show Adds st (withParen precSuffix o _ st) _
    rw [withParen_no (p := precSuffix) ho]
    exact p_dot H hx hcx hix hn hc hd
  | call c x ls l en fc fm hco hen hx hcx hl =>
    show Adds st (withParen precSuffix o _ st) _
    rw [withParen_no (p := precSuffix) ho]
    exact p_call H hen hx hcx hl hc (sub (fun h => h) (fun h => h))
  | index c x p y en hco hx hcx hy =>
    show Adds st (withParen precSuffix o _ st) _
    rw [withParen_no (p := precSuffix) ho]
    exact p_index H hx hcx hy hc (sub (fun h => h) (fun h => h))
  | slice c x p fr c1 to c2 sp en hco hx hcx hfr hto hsp hc2 =>
    show Adds st (withParen precSuffix o _ st) _
    rw [withParen_no (p := precSuffix) ho]
    exact p_slice H hx hcx hfr hto hsp hc2 hc (sub (fun h => h) (fun h => h))
  | list c s l en fm hco hen hl => exact p_list H hen hl hc
  | set c s l en fm hco hen hn hl => exact p_set H hen hn hl hc
  | tuple c s l en fc fm hco hen hl => exact p_tuple H hen hl hc
  | dict c s l en fm hco hen hl => exact p_dict H hen hl hc
  | paren c s x en fm hco hen hx => exact p_paren H hen hx hc
  | listCompr c p bd cl fm en hco hen hb hcl hf ha hm => exact p_listCompr H hen hb hcl hf ha hm hc
  | dictCompr c p bd cl fm en hco hen hb hcl hf ha hm => exact p_dictCompr H hen hb hcl hf ha hm hc
  | unary c p op x hco hop hx hcx => exact p_unary H hop hx hcx hc hd
  | binary c x p op lb y hco hop hx hcx hy hcy => exact p_binary H hop hx hcx hy hcy hc hd
  | is c x p lb y hco hx hcx hox hy hcy hny => exact p_is H (by decide) hx hcx hox hy hcy (.inl ⟨rfl, hny⟩) hc hd
  | isNot c x p lb y hco hx hcx hox hy hcy hby => exact p_is H (by decide) hx hcx hox hy hcy (.inr ⟨rfl, hby⟩) hc hd
  | lambda c p ps bd hco hps hnb hb => exact p_lambda H hps hnb hb hc hd
  | cond c t i te el e hco ht hte he hce =>
    show Adds st (withParen precSuffix o _ st) _
    rw [withParen_no (p := precSuffix) ho]
    exact p_cond H ht hte he hce hc hd
  | load c p m fs ts r fc hco hr hm hmt hn hlen h1 h3 =>
    show Adds st (withParen precSuffix o _ st) _
    rw [withParen_no (p := precSuffix) ho]
    exact p_load H hr hm hmt hn hlen h1 h3 hc

/-! ## Arguments, parameters, clauses -/

theorem body_typed {n : IdentN} {t : Expr} {f o : Nat} {b : Bool} {st : St} (hn : CN n.comments) (hname : Name n.name) (ht : OkN t) (hc : Clean st) (hd : Dep b st (.typedIdent cm n t)) :
    Adds st (exprBody ft pr f (.typedIdent cm n t) o st) (YP b (fun as => ∃ as', as = W K.ident n.name :: (W 58 b!":" :: as') ∧ AnyG t as')) := by
  show Adds st (pr t 0 (emit b!": " (pr (.ident n) 0 st))) _
  have h1 := (H.ident n 0 st hn hc).emit (t := b!": ") (R := (· = n.name ++ b!": ")) (by rintro _ rfl; rfl)
  have k : (emit b!": " (pr (.ident n) 0 st)).depth = st.depth := (H.keep _ _ _).1
  refine h1.trans (fun hc' => H.any ht (Nat.zero_le 2) hc' (dep_sub hd k (fun h => h) (fun h => h))) ?_
  rintro _ s2 rfl ⟨q1, q2, as, q3, q4⟩
  obtain ⟨n1, n2⟩ := name_text hname
  refine ⟨(n1.app).app, q2.app, _, fun c hc => ?_, as, rfl, q4⟩
  have := Lx.appT (s2 := 58 :: 32 :: s2) (c := c) (t_name (b := b) hname) follow58 (lx_colon (Lx.sp (q3 c hc)))
  simpa using this

theorem YP_name {n : IdentN} {o : Nat} {b : Bool} {st : St} (hn : CN n.comments) (hname : Name n.name) (hc : Clean st) :
    Adds st (pr (.ident n) o st) (YP b (· = [W K.ident n.name])) :=
  (H.ident n o st hn hc).mono (by rintro _ rfl; exact ⟨(name_text hname).1, (name_text hname).2, _, t_name hname, rfl⟩)

omit H in
theorem assign_dep {b : Bool} {st : St} {x : Expr} {c p op lb y} (hd : Dep b st (.assign c x p op lb y)) :
    (lb = true → b = false → st.depth = 0) ∧ (∀ st1 : St, st1.depth = st.depth → Dep b st1 x) ∧ (∀ st1 : St, st1.depth = st.depth → Dep b st1 y) := by
  refine ⟨fun hl hb => ?_, fun st1 h => ?_, fun st1 h => ?_⟩
  · rcases hd hb with ⟨h, _⟩ | h
    · exact h
    · unfold tight at h; rw [hl] at h; cases h
  · exact dep_sub hd h (fun h => by unfold tupleTight at h; simp only [Bool.and_eq_true] at h; exact h.1) (fun h => by unfold tight at h; simp only [Bool.and_eq_true] at h; exact h.1.2)
  · exact dep_sub hd h (fun h => by unfold tupleTight at h; simp only [Bool.and_eq_true] at h; exact h.2) (fun h => by unfold tight at h; simp only [Bool.and_eq_true] at h; exact h.2)

/-- `x = y` -/
theorem p_assign {x p op lb y} {b : Bool} {st : St} {f : Nat} {P1 P2 : List ATok → Prop} (hop : op ∈ assignOps) (hc : Clean st) (hd : Dep b st (.assign cm x p op lb y))
    (hx : ∀ st1, Clean st1 → Dep b st1 x → Adds st1 (pr x 1 st1) (YP b P1)) (hy : ∀ st1, Clean st1 → Dep b st1 y → Adds st1 (pr y 2 st1) (YP b P2)) :
    Adds st (exprBody ft pr f (.assign cm x p op lb y) 0 st) (YP b (fun as => ∃ as1 as2, as = as1 ++ (opToks op ++ as2) ∧ P1 as1 ∧ P2 as2)) := by
  obtain ⟨d1, d2, d3⟩ := assign_dep hd
  refine (infix_spec (P1 := P1) (P2 := P2) (mg := fun st => indent st + listIndentation) hc H.keep (by simp [allOps, hop]) (fun st1 hc1 he => hx st1 hc1 (d2 st1 he)) (fun st1 hc1 he => hy st1 hc1 (d3 st1 he)) d1).mono ?_
  rintro s ⟨q1, q2, as1, as2, q3, q4, q5⟩
  exact ⟨q1, q2, _, q3, as1, as2, rfl, q4, q5⟩

omit H in
theorem opToks_eq : opToks b!"=" = [W 61 b!"="] := by decide

omit H in
theorem YP.el {b : Bool} {P : List ATok → Prop} {elem : Expr → List ATok → Prop} {x : Expr} {s : Bytes} (h : YP b P s) (h' : ∀ as, P as → elem x as) : El b elem x s :=
  ⟨h.2.1, h.2.2.choose, h.2.2.choose_spec.1, h' _ h.2.2.choose_spec.2⟩

omit H in
/-- a star before an operand -/
theorem p_star {p x o} {b : Bool} {st : St} {f : Nat} {P : List ATok → Prop} {op : Bytes} (hop : op = b!"*" ∨ op = b!"**") (ho : o ≤ 13) (hn : x.isNil = false) (hc : Clean st)
    (hx : ∀ st1, Clean st1 → st1.depth = st.depth → Adds st1 (pr x 14 st1) (YP b P)) :
    Adds st (exprBody ft pr f (.unary cm p op x) o st) (fun s => EndOK s ∧ ∃ as, T b s (W (if op = b!"*" then 42 else K.starStar) op :: as) ∧ P as) := by
  show Adds st (withParen precUnary o _ st) _
  rw [withParen_no (p := precUnary) ho]
  dsimp only
  rw [hn]
  have hne : op ≠ b!"not" := by rcases hop with rfl | rfl <;> decide
  simp only [if_neg hne, Bool.false_eq_true, if_false]
  refine (Adds.emit0 (R := (· = op)) hc rfl).trans (fun hc' => hx _ hc' rfl) ?_
  rintro _ s2 rfl ⟨q1, q2, as, q3, q4⟩
  refine ⟨q2.app, as, fun c hc => ?_, q4⟩
  obtain ⟨y, r, rfl, hy⟩ := q1
  rcases hop with h | h
  · subst h
    exact Lx.pre (tok_star (start_ne hy).1 (start_ne hy).2.1) (by decide) (q3 c hc)
  · subst h
    exact Lx.pre (tok_starStar _) (by decide) (q3 c hc)

theorem body_arg {x : Expr} {f : Nat} {st : St} (h : OkArg x) (hc : Clean st) : Adds st (exprBody ft pr f x 0 st) (El true ArgG x) := by
  cases h with
  | plain _ h =>
    exact (body_ok (ft := ft) (f := f) (o := 0) H h (by omega) hc (dep_true _ _)).mono (fun _ q => q.el (fun as g => g_arg (fits_any (Nat.zero_le 2) h.sh g)))
  | named c n p lb y hco hn hname hy =>
    refine (p_assign (P1 := (· = [W K.ident n.name])) (P2 := AnyG y) H (by decide) hc (dep_true _ _) (fun st1 hc1 _ => YP_name H hn hname hc1)
      (fun st1 hc1 hd => H.any hy (by omega) hc1 hd)).mono (fun _ q => q.el ?_)
    rintro _ ⟨_, as2, rfl, rfl, q⟩
    exact g_argNamed q
  | star c p x hco hx =>
    refine (p_star (P := AnyG x) (b := true) (.inl rfl) (Nat.zero_le _) hx.isNil hc (fun st1 hc1 _ => (H.ok x 14 true st1 hx (by omega) hc1 (dep_true _ _)).mono (fun _ q => q.mono (fun _ g => fits14_any hx.sh g)))).mono ?_
    rintro s ⟨q1, as, q2, q3⟩
    exact ⟨q1, _, q2, g_argStar q3⟩
  | starStar c p x hco hx =>
    refine (p_star (P := AnyG x) (b := true) (.inr rfl) (Nat.zero_le _) hx.isNil hc (fun st1 hc1 _ => (H.ok x 14 true st1 hx (by omega) hc1 (dep_true _ _)).mono (fun _ q => q.mono (fun _ g => fits14_any hx.sh g)))).mono ?_
    rintro s ⟨q1, as, q2, q3⟩
    exact ⟨q1, _, q2, g_argStarStar q3⟩

omit H in
theorem paramG_of {ty : Bool} {x : Expr} {as} (h : Gen as (.n .parameter) (SE x)) : ParamG ty x as := by
  cases ty
  · exact h
  · exact g_paramT h

theorem body_param {ty : Bool} {x : Expr} {f : Nat} {b : Bool} {st : St} (h : OkParam ty x) (hc : Clean st) (hd : Dep b st x) :
    Adds st (exprBody ft pr f x 0 st) (El b (ParamG ty) x) := by
  have tstar : ∀ (cm : Comments) (n : IdentN) (t : Expr) (st1 : St), CN cm → CN n.comments → Name n.name → OkN t → Clean st1 → Dep b st1 (.typedIdent cm n t) →
      Adds st1 (pr (.typedIdent cm n t) 14 st1) (YP b (fun as => ∃ as', as = W K.ident n.name :: (W 58 b!":" :: as') ∧ AnyG t as')) :=
    fun cm n t st1 h0 h1 h2 h3 h4 h5 => H.typed cm n t 14 b st1 h0 h1 h2 h3 h4 h5
  cases h with
  | plain _ n hco hname => exact Adds.emit0 hc ⟨(name_text hname).2, _, t_name hname, paramG_of g_param⟩
  | default _ c n p lb y hco hn hname hy =>
    refine (p_assign (P1 := (· = [W K.ident n.name])) (P2 := AnyG y) H (by decide) hc hd (fun st1 hc1 _ => YP_name H hn hname hc1)
      (fun st1 hc1 hd => H.any hy (by omega) hc1 hd)).mono (fun _ q => q.el ?_)
    rintro _ ⟨_, as2, rfl, rfl, q⟩
    exact paramG_of (g_paramDefault q)
  | bare _ c p hco =>
    show Adds st (withParen precUnary 0 _ st) _
    rw [withParen_no (p := precUnary) (Nat.zero_le _)]
    exact Adds.emit0 hc ⟨EndOK.single (by decide), _, fun c hc => Lx.tok b _ _ _ (tok_star (follow_plain hc).1 (follow_plain hc).2.1) (by decide), paramG_of g_paramBare⟩
  | star _ c p n hco hn hname =>
    refine (p_star (P := (· = [W K.ident n.name])) (b := b) (.inl rfl) (Nat.zero_le _) rfl hc (fun st1 hc1 _ => YP_name H hn hname hc1)).mono ?_
    rintro s ⟨q1, as, q2, rfl⟩
    exact ⟨q1, _, q2, paramG_of g_paramStar⟩
  | starStar _ c p n hco hn hname =>
    refine (p_star (P := (· = [W K.ident n.name])) (b := b) (.inr rfl) (Nat.zero_le _) rfl hc (fun st1 hc1 _ => YP_name H hn hname hc1)).mono ?_
    rintro s ⟨q1, as, q2, rfl⟩
    exact ⟨q1, _, q2, paramG_of g_paramStarStar⟩
  | typed c n t hco hn hname ht =>
    refine (body_typed H hn hname ht hc hd).mono (fun _ q => q.el ?_)
    rintro _ ⟨as', rfl, q⟩
    exact g_typed q
  | typedDefault c c' n t p lb y hco hco' hn hname ht hy =>
    refine (p_assign (P1 := fun as => ∃ as', as = W K.ident n.name :: (W 58 b!":" :: as') ∧ AnyG t as') (P2 := AnyG y) H (by decide) hc hd
      (fun st1 hc1 hd => H.typed c' n t 1 b st1 hco' hn hname ht hc1 hd) (fun st1 hc1 hd => H.any hy (by omega) hc1 hd)).mono (fun _ q => q.el ?_)
    rintro _ ⟨_, as2, rfl, ⟨as', rfl, q1⟩, q2⟩
    exact g_typedDefault q1 q2
  | typedStar c c' p n t hco hco' hn hname ht =>
    refine (p_star (P := fun as => ∃ as', as = W K.ident n.name :: (W 58 b!":" :: as') ∧ AnyG t as') (b := b) (.inl rfl) (Nat.zero_le _) rfl hc
      (fun st1 hc1 he => tstar c' n t st1 hco' hn hname ht hc1 (dep_sub hd he (fun h => h) (fun h => h)))).mono ?_
    rintro s ⟨q1, _, q2, as', rfl, q3⟩
    exact ⟨q1, _, q2, g_typedStar q3⟩
  | typedStarStar c c' p n t hco hco' hn hname ht =>
    refine (p_star (P := fun as => ∃ as', as = W K.ident n.name :: (W 58 b!":" :: as') ∧ AnyG t as') (b := b) (.inr rfl) (Nat.zero_le _) rfl hc
      (fun st1 hc1 he => tstar c' n t st1 hco' hn hname ht hc1 (dep_sub hd he (fun h => h) (fun h => h)))).mono ?_
    rintro s ⟨q1, _, q2, as', rfl, q3⟩
    exact ⟨q1, _, q2, g_typedStarStar q3⟩

theorem body_kv {x : Expr} {f o : Nat} {st : St} (h : OkKV x) (hc : Clean st) : Adds st (exprBody ft pr f x o st) (El true KvG x) := by
  cases h with
  | kv c k p v hco hk hv =>
    show Adds st (pr v 0 (emit b!": " (pr k 0 st))) _
    have h1 := (H.any hk (Nat.zero_le 2) hc (dep_true _ _)).emit (t := b!": ") (R := fun s => ∃ s1, s = s1 ++ b!": " ∧ Y true (.any 2) (SE k) s1) (fun s q => ⟨s, rfl, q⟩)
    refine h1.trans (fun hc' => H.any hv (Nat.zero_le 2) hc' (dep_true _ _)) ?_
    rintro _ s2 ⟨s1, rfl, _, _, as1, q3, q4⟩ ⟨_, r2, as2, r3, r4⟩
    refine ⟨r2.app, _, fun c hc => ?_, g_kv q4 r4⟩
    have := Lx.appT (s2 := 58 :: 32 :: s2) (c := c) q3 follow58 (lx_colon (Lx.sp (r3 c hc)))
    simpa using this

omit H in
theorem YP_kw {b : Bool} {P : List ATok → Prop} {t s : Bytes} {k : Kind} (h : (∃ x s, t = x :: s ∧ isIdent x = true ∧ s.all isIdent = true) ∧ identKind t = k ∧ depthChange k = 0)
    (q : YP b P s) : EndOK (t ++ 32 :: s) ∧ ∃ as, T b (t ++ 32 :: s) (W k t :: as) ∧ P as := by
  obtain ⟨q1, q2, as, q3, q4⟩ := q
  exact ⟨(q2.cons).app, as, fun c hc => lx_kw h follow32 (Lx.sp (q3 c hc)), q4⟩

theorem body_clause {x : Expr} {f o : Nat} {st : St} (h : OkClause x) (hc : Clean st) : Adds st (exprBody ft pr f x o st) (El true ClauseG x) := by
  cases h with
  | for_ c p v i x hco hv hx hcx =>
    show Adds st (pr x 0 (emit b!" in " (pr v 0 (emit b!"for " st)))) _
    have h1 := (Adds.emit0 (R := (· = b!"for ")) hc rfl).trans (fun hc' => H.vars v true _ hv hc' (dep_true _ _)) (R := fun s => ∃ s1, s = b!"for " ++ s1 ∧ Y true .loopVars (SE v) s1)
      (by rintro _ s2 rfl q; exact ⟨s2, rfl, q⟩)
    have h2 := h1.emit (t := b!" in ") (R := fun s => ∃ s1, s = b!"for " ++ s1 ++ b!" in " ∧ Y true .loopVars (SE v) s1) (by rintro _ ⟨s1, rfl, q⟩; exact ⟨s1, rfl, q⟩)
    refine h2.trans (fun hc' => H.ok x 0 true _ hx (by omega) hc' (dep_true _ _)) ?_
    rintro _ s2 ⟨s1, rfl, _, _, as1, q3, q4⟩ ⟨_, r2, as2, r3, r4⟩
    have e : b!"for " ++ s1 ++ b!" in " ++ s2 = b!"for" ++ 32 :: (s1 ++ 32 :: (b!"in" ++ 32 :: s2)) := by simp
    rw [e]
    refine ⟨((((r2.cons).app).cons).app.cons).app, _, fun c hc => ?_, g_forClause q4 (fits0 hcx hx.sh r4)⟩
    exact lx_kw (k := K.for_) ⟨⟨_, _, rfl, by decide, by decide⟩, by decide, by decide⟩ follow32 (Lx.sp (Lx.appT q3 follow32 (Lx.sp
      (lx_kw (k := K.in_) ⟨⟨_, _, rfl, by decide, by decide⟩, by decide, by decide⟩ follow32 (Lx.sp (r3 c hc))))))
  | if_ c p x hco hx hcx =>
    show Adds st (pr x 0 (emit b!"if " st)) _
    refine (Adds.emit0 (R := (· = b!"if ")) hc rfl).trans (fun hc' => H.ok x 0 true _ hx (by omega) hc' (dep_true _ _)) ?_
    rintro _ s2 rfl q
    obtain ⟨q1, as, q2, q3⟩ := YP_kw (t := b!"if") (k := K.if_) ⟨⟨_, _, rfl, by decide, by decide⟩, by decide, by decide⟩ q
    exact ⟨q1, _, q2, as, rfl, fits0 hcx hx.sh q3⟩

theorem body_vars {x : Expr} {f : Nat} {b : Bool} {st : St} (h : OkVars x) (hc : Clean st) (hd : Dep b st x) : Adds st (exprBody ft pr f x 0 st) (Y b .loopVars (SE x)) := by
  cases h with
  | one _ h hp => exact (body_ok (ft := ft) (f := f) (o := 0) H h (by omega) hc hd).mono (fun _ q => q.mono (fun as g => g_var (fits_var hp g)))
  | tuple c s x y l e fc fm hco he hl hbr hp => exact p_bareVars H he hl hbr hp hc hd

theorem body_expr {x : Expr} {f o : Nat} {b : Bool} {st : St} (h : OkExpr x) (ho : o ≤ 2) (hc : Clean st) (hd : Dep b st x) : Adds st (exprBody ft pr f x o st) (Y b .expr (SE x)) := by
  cases h with
  | one _ h => exact (body_ok (ft := ft) (f := f) (o := o) H h (by omega) hc hd).mono (fun _ q => q.mono (fun as g => g_expr (fits_any ho h.sh g)))
  | tuple c s x y l e fc fm hco he hl hbr hp => exact p_bareExpr H he hl hbr hp hc hd

theorem body_load {x : Expr} {f : Nat} {st : St} (h : OkLoadArg x) (hc : Clean st) : Adds st (exprBody ft pr f x 0 st) (El true LoadElem x) := by
  cases h with
  | string n hco ht =>
    exact string_adds ht hc (fun s hs => ⟨(good_text hs).2, _, t_str hs, s, rfl⟩)
  | named n m hn hname hm ht =>
    refine (p_assign (P1 := (· = [W K.ident n.name])) (P2 := fun as => ∃ t, as = [⟨K.string, t, m.value, m.triple⟩]) H (by decide) hc (dep_true _ _) (fun st1 hc1 _ => YP_name H hn hname hc1)
      (fun st1 hc1 hd => H.str m 2 true st1 hm (.inl ht) hc1)).mono (fun _ q => q.el ?_)
    rintro _ ⟨_, _, rfl, rfl, t, rfl⟩
    exact ⟨t, rfl⟩

end

theorem expr_eq' (ft : FileType) (f : Nat) (e : Expr) (o : Nat) {st : St} (hc : Clean st) : expr ft (f + 1) e o st =
    { exprBody ft (expr ft f) f e o (beforeComments e.comments.before st) with
      comment := (exprBody ft (expr ft f) f e o (beforeComments e.comments.before st)).comment ++ e.comments.suffix } := by
  have h1 : newlineIfNeeded st = st := by unfold newlineIfNeeded; rw [hc.2]; rfl
  show { exprBody ft (expr ft f) f e o (beforeComments e.comments.before (newlineIfNeeded st)) with
    comment := (exprBody ft (expr ft f) f e o (beforeComments e.comments.before (newlineIfNeeded st))).comment ++ e.comments.suffix } = _
  rw [h1]

theorem Adds.addCom {st st1 : St} {P : Bytes → Prop} {l : List Comment} (h : Adds st st1 P) (hl : ComsOK l) : Adds st { st1 with comment := st1.comment ++ l } P :=
  ⟨⟨fun c hc => by
    rcases List.mem_append.1 hc with hc | hc
    · exact h.1.1 c hc
    · exact hl c hc, h.1.2⟩, h.2⟩

/-- an expression without comments before it -/
theorem adds_exprN {ft f e o} {st : St} {P : Bytes → Prop} (hc : Clean st) (he : CN e.comments) (h : Adds st (exprBody ft (expr ft f) f e o st) P) : Adds st (expr ft (f + 1) e o st) P := by
  rw [expr_eq' _ _ _ _ hc, he.1]
  exact h.addCom he.2

/-- an element of a list in brackets -/
theorem adds_exprE {ft f e o} {st : St} {elem : Expr → List ATok → Prop} (hc : Clean st) (he : CO e.comments) (hf : NB e ∨ FreshC st)
    (h : ∀ st, Clean st → Adds st (exprBody ft (expr ft f) f e o st) (El true elem e)) : Adds st (expr ft (f + 1) e o st) (El true elem e) := by
  rw [expr_eq' _ _ _ _ hc]
  have h1 := (before_in he.1 hc (fun hn => hf.resolve_left (fun h => hn h))).1
  refine (h1.trans (fun hc' => h _ hc') ?_).addCom he.2
  rintro t s ⟨ht, _⟩ ⟨q1, as, q2, q3⟩
  exact ⟨q1.app, as, fun c hc => ht _ _ _ (q2 c hc), q3⟩

/-- the printer of expressions -/
theorem prOK (ft : FileType) : ∀ f, PrOK (expr ft f) := by
  intro f
  induction f with
  | zero =>
    have key : ∀ (st : St) (P : Bytes → Prop), Clean st → Adds st { st with bad := true } P := fun st P hc => Adds.bad hc rfl
    exact ⟨keep_expr ft 0, fun _ _ st _ hc => key st _ hc, fun _ _ _ st _ _ hc => key st _ hc, fun _ _ _ st _ _ hc _ => key st _ hc, fun _ st _ hc _ => key st _ hc,
      fun _ st _ hc _ => key st _ hc, fun _ st _ hc _ => key st _ hc, fun _ _ _ _ _ st _ _ _ _ hc _ => key st _ hc, fun _ _ _ st _ _ hc _ => key st _ hc, fun _ st _ hc _ => key st _ hc,
      fun _ st _ hc _ => key st _ hc, fun _ _ st _ hc _ => key st _ hc, fun _ _ _ st _ _ hc _ => key st _ hc⟩
  | succ f H =>
    refine ⟨keep_expr ft (f + 1), ?_, ?_, ?_, ?_, ?_, ?_, ?_, ?_, ?_, ?_, ?_, ?_⟩
    · intro n o st hn hc
      exact adds_exprN hc hn (Adds.emit0 hc rfl)
    · intro n o b st hn ht hc
      exact adds_exprN hc hn (string_adds ht hc (fun s hs => ⟨(good_text hs).1, (good_text hs).2, _, t_str hs, s, rfl⟩))
    · intro e o b st he ho hc hd
      exact adds_exprN hc ⟨he.nb, he.ok.co.2⟩ (body_ok H he.ok ho hc hd)
    · intro x st h hc hf
      exact adds_exprE hc h.co hf (fun st hc => (body_ok (o := 0) H h (by omega) hc (dep_true _ _)).mono (fun _ q => YP.el q (fun as g => fits_any (Nat.zero_le 2) h.sh g)))
    · intro x st h hc hf
      refine adds_exprE hc ?_ hf (fun st hc => body_load H h hc)
      cases h <;> first | assumption | exact ⟨comsOK_nil, comsOK_nil⟩
    · intro x st h hc hf
      refine adds_exprE hc ?_ hf (fun st hc => body_arg H h hc)
      cases h <;> first | assumption | skip
      rename_i h; exact h.co
    · intro c n t o b st hco hn hname ht hc hd
      exact adds_exprN hc hco (body_typed H hn hname ht hc hd)
    · intro ty x b st h hb hc hd
      have hco : CO x.comments := by cases h <;> assumption
      cases b with
      | true => exact adds_exprE hc hco (hb.imp id (fun h => h.2)) (fun st hc => body_param H h hc (dep_true _ _))
      | false =>
        have hn : NB x := hb.resolve_right (fun h => by cases h.1)
        exact adds_exprN hc ⟨hn, hco.2⟩ (body_param H h hc hd)
    · intro x st h hc hf
      refine adds_exprE hc ?_ hf (fun st hc => body_kv H h hc)
      cases h; assumption
    · intro x st h hc hf
      refine adds_exprE hc ?_ hf (fun st hc => body_clause H h hc)
      cases h <;> assumption
    · intro x b st h hc hd
      refine adds_exprN hc ⟨h.nb, ?_⟩ (body_vars H h.ok hc hd)
      cases h.ok with
      | one _ h => exact h.co.2
      | tuple _ _ _ _ _ _ _ _ hco => exact hco.2
    · intro x o b st h ho hc hd
      refine adds_exprN hc ⟨h.nb, ?_⟩ (body_expr H h.ok ho hc hd)
      cases h.ok with
      | one _ h => exact h.co.2
      | tuple _ _ _ _ _ _ _ _ hco => exact hco.2

end Verif.RoundI
