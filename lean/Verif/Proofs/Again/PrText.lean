import Verif.Proofs.Again.Force
import Verif.Proofs.PrintE
/-
How single tokens are printed and read, with lines; parentheses; operators.
-/
namespace Verif.Again
open Verif Verif.Syntax Verif.Lexer Verif.Print Verif.Grammar Verif.Parser Verif.Round

/-! ## Texts -/

theorem int_nl {t : Bytes} (h : IntText t) : nl t = 0 := by
  have h10 : ∀ {l s}, Digits l s → ∀ y ∈ s, y ≠ 10 := by
    intro l s h
    induction h with
    | nil => simp
    | word l c s hc _ ih =>
      intro y hy
      rcases List.mem_cons.1 hy with rfl | hy
      · exact (start_ne (word_start hc)).2.2.2.1
      · exact ih y hy
    | sign l c s hc _ _ ih =>
      intro y hy
      rcases List.mem_cons.1 hy with rfl | hy
      · rcases hc with rfl | rfl <;> decide
      · exact ih y hy
  obtain ⟨x, s, rfl, hx, hs⟩ := h
  unfold nl
  rw [List.count_eq_zero]
  intro hm
  rcases List.mem_cons.1 hm with h | h
  · exact (start_ne (word_start (.inl hx))).2.2.2.1 h.symm
  · exact h10 hs _ h rfl

theorem t_name {b ln t} (h : Name t) : T b ln t [W ln K.ident t] := fun _ hc => Lx.tok b ln t _ _ (tok_name h hc) rfl
theorem t_int {b ln t} (h : IntText t) : T b ln t [W ln K.int t] := fun _ hc => Lx.tok b ln t _ _ (tok_int h hc) rfl
theorem t_str {b ln t v tr} (h : Props.Quote.GoodLiteral t v tr) : T b ln t [WS ln t v tr] := fun _ hc => Lx.tok b ln t _ _ (tok_string h hc) rfl

theorem lx_dot {b ln s c as} (h : Lx b ln s c as) : Lx b ln (46 :: s) c (W ln 46 b!"." :: as) := Lx.pre0 (t := b!".") (k := 46) (tok_single (by decide) _) (by decide) (by decide) h

theorem kw_nl {t : Bytes} (h : ∃ x s, t = x :: s ∧ isIdent x = true ∧ s.all isIdent = true) : nl t = 0 := by
  obtain ⟨x, s, rfl, h1, h2⟩ := h
  unfold nl
  rw [List.count_eq_zero]
  intro hm
  have : isIdent 10 = true := by
    rcases List.mem_cons.1 hm with h | h
    · rw [h]; exact h1
    · exact List.all_eq_true.1 h2 _ h
  revert this; decide

theorem lx_kw {b ln t s c as} {k : Kind} (h : (∃ x s, t = x :: s ∧ isIdent x = true ∧ s.all isIdent = true) ∧ identKind t = k ∧ depthChange k = 0)
    (hf : Follow (s.headD c)) (h2 : Lx b ln s c as) : Lx b ln (t ++ s) c (W ln k t :: as) :=
  Lx.pre0 (tok_kw h.1 h.2.1 hf) h.2.2 (kw_nl h.1) h2

/-- an operator followed by a blank or a line break -/
theorem lx_op {b : Bool} {ln : Nat} {op : Bytes} {c : UInt8} (h : op ∈ allOps) (hc : c = 32 ∨ c = 10) : Lx b ln op c (opToks ln op) := by
  have hf : Follow c := by rcases hc with rfl | rfl; exact follow32; exact follow10
  have kw : ∀ (t : Bytes) (k : Kind), ((∃ x s, t = x :: s ∧ isIdent x = true ∧ s.all isIdent = true) ∧ identKind t = k ∧ depthChange k = 0) → Lx b ln t c [W ln k t] :=
    fun t k h => Lx.tok b ln t c _ (tok_kw h.1 h.2.1 hf) h.2.2
  have sy : ∀ (t : Bytes) (k : Kind), (∃ x s, t = x :: s ∧ isOpByte x = true ∧ ∀ c r, (c = 32 ∨ c = 10) → scanOp x (s ++ c :: r) = (k, t, c :: r)) → depthChange k = 0 → Lx b ln t c [W ln k t] :=
    fun t k ⟨x, s, e, h1, h2⟩ hd => Lx.tok b ln t c _ (tok_op ⟨x, s, e, h1, fun r => h2 c r hc⟩) hd
  have two : ∀ (t1 t2 : Bytes) (k1 k2 : Kind), ((∃ x s, t1 = x :: s ∧ isIdent x = true ∧ s.all isIdent = true) ∧ identKind t1 = k1 ∧ depthChange k1 = 0) →
      ((∃ x s, t2 = x :: s ∧ isIdent x = true ∧ s.all isIdent = true) ∧ identKind t2 = k2 ∧ depthChange k2 = 0) → Lx b ln (t1 ++ 32 :: t2) c [W ln k1 t1, W ln k2 t2] :=
    fun t1 t2 k1 k2 h1 h2 => lx_kw h1 follow32 (Lx.sp (kw t2 k2 h2))
  simp only [allOps, binOps, isOps, assignOps, augOps, List.cons_append, List.nil_append, List.mem_cons, List.not_mem_nil, or_false] at h
  rcases h with rfl | rfl | rfl | rfl | rfl | rfl | rfl | rfl | rfl | rfl | rfl | rfl | rfl | rfl | rfl | rfl | rfl | rfl | rfl | rfl | rfl | rfl | rfl |
    rfl | rfl | rfl | rfl | rfl | rfl | rfl | rfl | rfl | rfl | rfl | rfl
  · exact kw _ _ ⟨⟨_, _, rfl, by decide, by decide⟩, by decide, by decide⟩
  · exact kw _ _ ⟨⟨_, _, rfl, by decide, by decide⟩, by decide, by decide⟩
  · exact sy _ _ ⟨_, _, rfl, by decide, by rintro c r (rfl | rfl) <;> rfl⟩ (by decide)
  · exact sy _ _ ⟨_, _, rfl, by decide, by rintro c r (rfl | rfl) <;> rfl⟩ (by decide)
  · exact sy _ _ ⟨_, _, rfl, by decide, by rintro c r (rfl | rfl) <;> rfl⟩ (by decide)
  · exact sy _ _ ⟨_, _, rfl, by decide, by rintro c r (rfl | rfl) <;> rfl⟩ (by decide)
  · exact sy _ _ ⟨_, _, rfl, by decide, by rintro c r (rfl | rfl) <;> rfl⟩ (by decide)
  · exact sy _ _ ⟨_, _, rfl, by decide, by rintro c r (rfl | rfl) <;> rfl⟩ (by decide)
  · exact kw _ _ ⟨⟨_, _, rfl, by decide, by decide⟩, by decide, by decide⟩
  · exact two b!"not" b!"in" K.not K.in_ ⟨⟨_, _, rfl, by decide, by decide⟩, by decide, by decide⟩ ⟨⟨_, _, rfl, by decide, by decide⟩, by decide, by decide⟩
  · exact sy _ _ ⟨_, _, rfl, by decide, by rintro c r (rfl | rfl) <;> rfl⟩ (by decide)
  · exact sy _ _ ⟨_, _, rfl, by decide, by rintro c r (rfl | rfl) <;> rfl⟩ (by decide)
  · exact sy _ _ ⟨_, _, rfl, by decide, by rintro c r (rfl | rfl) <;> rfl⟩ (by decide)
  · exact sy _ _ ⟨_, _, rfl, by decide, by rintro c r (rfl | rfl) <;> rfl⟩ (by decide)
  · exact sy _ _ ⟨_, _, rfl, by decide, by rintro c r (rfl | rfl) <;> rfl⟩ (by decide)
  · exact sy _ _ ⟨_, _, rfl, by decide, by rintro c r (rfl | rfl) <;> rfl⟩ (by decide)
  · exact sy _ _ ⟨_, _, rfl, by decide, by rintro c r (rfl | rfl) <;> rfl⟩ (by decide)
  · exact sy _ _ ⟨_, _, rfl, by decide, by rintro c r (rfl | rfl) <;> rfl⟩ (by decide)
  · exact sy _ _ ⟨_, _, rfl, by decide, by rintro c r (rfl | rfl) <;> rfl⟩ (by decide)
  · exact sy _ _ ⟨_, _, rfl, by decide, by rintro c r (rfl | rfl) <;> rfl⟩ (by decide)
  · exact sy _ _ ⟨_, _, rfl, by decide, by rintro c r (rfl | rfl) <;> rfl⟩ (by decide)
  · exact kw _ _ ⟨⟨_, _, rfl, by decide, by decide⟩, by decide, by decide⟩
  · exact two b!"is" b!"not" K.is K.not ⟨⟨_, _, rfl, by decide, by decide⟩, by decide, by decide⟩ ⟨⟨_, _, rfl, by decide, by decide⟩, by decide, by decide⟩
  all_goals exact sy _ _ ⟨_, _, rfl, by decide, by rintro c r (rfl | rfl) <;> rfl⟩ (by decide)


theorem op_nl {op : Bytes} (h : op ∈ allOps) : nl op = 0 := by
  have key : ∀ op ∈ allOps, nl op = 0 := by decide
  exact key op h

/-! ## Parentheses -/

theorem nl_group {o cl : UInt8} {s : Bytes} (ho : o = 40 ∨ o = 91 ∨ o = 123) (hc : cl = 41 ∨ cl = 93 ∨ cl = 125) : nl (o :: (s ++ [cl])) = nl s := by
  rw [nl_cons, nl_append, nl_close hc, if_neg (by rcases ho with rfl | rfl | rfl <;> decide)]
  rfl

theorem lx_group {b : Bool} {ln : Nat} {o cl : UInt8} {s : Bytes} {as : List LTok} (ho : o = 40 ∨ o = 91 ∨ o = 123) (hc : cl = 41 ∨ cl = 93 ∨ cl = 125)
    (h : T true ln s as) : T b ln (o :: (s ++ [cl])) (W ln o.toNat [o] :: (as ++ [W (ln + nl s) cl.toNat [cl]])) := by
  intro c _
  refine Lx.group b ln o cl s c as ho hc (h cl ?_)
  rcases hc with rfl | rfl | rfl
  · exact follow41
  · exact follow93
  · exact follow125

theorem withParen_spec {ft : FileType} {prec outer : Nat} {b : Bool} {st : St} {body : St → St} {e : Expr} {x : FNT} (hn : e.isNil = false) (hl : isLit e = false) (hc : Clean st) (hd : Dep b st e)
    (hbody : ∀ b' st1 o, o ≤ prec → Clean st1 → Dep b' st1 e → Adds st1 (body st1) (Y b' (line st1) x (OE (fun y => RQ ft e y o st1 (body st1)))))
    (hx : ∀ as R, Gen as (.n x) R → Gen as (.n (.any 2)) R) :
    Adds st (withParen prec outer body st) (Y b (line st) (if prec < outer then .primary else x) (OE (fun y => RQ ft e y outer st (withParen prec outer body st)))) := by
  by_cases h : prec < outer
  · rw [if_pos h]
    have hw : withParen prec outer body st = emit b!")" { body { emit b!"(" st with depth := st.depth + 1 } with depth := (body { emit b!"(" st with depth := st.depth + 1 }).depth - 1 } := by
      unfold withParen; rw [if_pos h]
    rw [hw]
    have hle : line { emit b!"(" st with depth := st.depth + 1 } = line st := line_emit b!"(" st
    have h0 : Adds st { emit b!"(" st with depth := st.depth + 1 } (· = b!"(") := Adds.emit0 hc rfl
    have h1 := h0.trans (fun hc' => lined (hbody true _ 0 (Nat.zero_le _) hc' (dep_true _ _)))
      (R := fun s => ∃ s1, s = 40 :: s1 ∧ Y true (line st) x (OE (fun y => RQ ft e y 0 { emit b!"(" st with depth := st.depth + 1 } (body { emit b!"(" st with depth := st.depth + 1 }))) s1 ∧
        line (body { emit b!"(" st with depth := st.depth + 1 }) = line st + nl s1) (by
      rintro _ s2 rfl ⟨q, r⟩; rw [hle] at q r; exact ⟨s2, rfl, q, r⟩)
    have h2 : Adds st { body { emit b!"(" st with depth := st.depth + 1 } with depth := (body { emit b!"(" st with depth := st.depth + 1 }).depth - 1 } _ := h1
    refine h2.emit ?_
    rintro _ ⟨s1, rfl, ⟨_, _, as, ht, hg⟩, hln⟩
    obtain ⟨e1, e2⟩ := group_ends (s := s1) (o := 40) (cl := 41) (.inl rfl) (.inl rfl)
    refine ⟨e1, e2, _, lx_group (.inl rfl) (.inl rfl) ht, g_added (hx _ _ hg) ?_⟩
    intro p e' x' hp he hx'
    exact r_added (by omega) hn hl hc hx' hp rfl (he.trans hln.symm)
  · rw [if_neg h]
    have hw : withParen prec outer body st = body st := withParen_le (by omega)
    rw [hw]
    exact hbody b st outer (by omega) hc hd

/-! ## Operators -/

section
variable {pr : Pr} {b : Bool} {st : St} {x y : Expr} {px py : Nat} {op : Bytes} {lb : Bool} {mg : Nat} {P1 P2 : List LTok → Prop}

/-- what an infix operator prints -/
theorem infix_spec (hc : Clean st) (hk : ∀ e o st, Keep st (pr e o st)) (hop : op ∈ allOps)
    (hx : Clean (binX lb mg st) → (binX lb mg st).depth = st.depth → Adds (binX lb mg st) (pr x px (binX lb mg st)) (YP b (line st) P1))
    (hy : Clean (pr x px (binX lb mg st)) → Clean (binY lb op (pr x px (binX lb mg st))) → (binY lb op (pr x px (binX lb mg st))).depth = st.depth →
      Adds (binY lb op (pr x px (binX lb mg st))) (pr y py (binY lb op (pr x px (binX lb mg st)))) (YP b (line (binY lb op (pr x px (binX lb mg st)))) P2))
    (hlb : lb = true → b = false → st.depth = 0) :
    Clean (pr x px (binX lb mg st)) ∧ Adds st { pr y py (binY lb op (pr x px (binX lb mg st))) with margin := st.margin }
      (fun s => StartOK s ∧ EndOK s ∧ ∃ as1 as2 k, T b (line st) s (as1 ++ (opToks k op ++ as2)) ∧ P1 as1 ∧ P2 as2) := by
  have e1 := op_end hop
  have hcX : Clean (binX lb mg st) := by cases lb <;> exact hc
  have hdX : (binX lb mg st).depth = st.depth := by cases lb <;> rfl
  have hlX : line (binX lb mg st) = line st := line_binX lb mg st
  have hX : Adds st (binX lb mg st) (· = []) := by cases lb <;> exact Adds.refl hc
  have hA := hx hcX hdX
  have hc1 := hA.1
  refine ⟨hc1, ?_⟩
  have h1 : Adds st (pr x px (binX lb mg st)) (fun s => YP b (line st) P1 s ∧ line (pr x px (binX lb mg st)) = line st + nl s) :=
    hX.trans (fun _ => lined hA) (by rintro _ s2 rfl ⟨q, e⟩; rw [hlX] at e; exact ⟨q, e⟩)
  generalize hs1 : pr x px (binX lb mg st) = st1 at *
  have hd1 : st1.depth = st.depth := by rw [← hs1]; exact ((hk _ _ _).1).trans hdX
  have hlY : line (binY lb op st1) = line st1 + (if lb then 1 else 0) := line_binY (op_nl hop) hc1
  have h1' := h1.emit (t := b!" " ++ op) (R := fun s => ∃ s1, s = s1 ++ (b!" " ++ op) ∧ YP b (line st) P1 s1 ∧ line st1 = line st + nl s1) (fun s q => ⟨s, rfl, q⟩)
  have h2 : Adds st (binY lb op st1) (fun s => ∃ s1 t, s = s1 ++ (b!" " ++ op) ++ t ∧ YP b (line st) P1 s1 ∧ line st1 = line st + nl s1 ∧
      (t = [32] ∧ lb = false ∨ lb = true ∧ ∃ esc, Brk esc t ∧ (b = false → esc = true))) := by
    cases lb with
    | false => exact h1'.emit (t := b!" ") (by rintro _ ⟨s, rfl, q, r⟩; exact ⟨s, _, rfl, q, r, .inl ⟨rfl, rfl⟩⟩)
    | true =>
      refine h1'.breakline (by rintro _ ⟨s1, rfl, _⟩; exact (e1.app).app) ?_
      rintro _ t ⟨s1, rfl, q, r⟩ ht
      refine ⟨s1, t, rfl, q, r, .inr ⟨rfl, _, ht, fun hb => ?_⟩⟩
      show decide (st1.depth = 0) = true
      rw [hd1, hlb rfl hb]
      rfl
  have hdY : (binY lb op st1).depth = st.depth := by
    cases lb with
    | false => exact hd1
    | true => exact ((keep_breakline _).1).trans hd1
  have h3 := h2.trans (fun hc' => hy hc1 hc' hdY) (R := fun s => StartOK s ∧ EndOK s ∧ ∃ as1 as2 k, T b (line st) s (as1 ++ (opToks k op ++ as2)) ∧ P1 as1 ∧ P2 as2) (by
    rintro _ s2 ⟨s1, t, rfl, ⟨q1, q2, as1, q3, q4⟩, hl, ht⟩ ⟨r1, r2, as2, r3, r4⟩
    refine ⟨((q1.app).app).app, r2.app, as1, as2, line st + nl s1, fun c hc => ?_, q4, r4⟩
    rw [hlY, hl] at r3
    have hmid : Lx b (line st + nl s1) (op ++ (t ++ s2)) c (opToks (line st + nl s1) op ++ as2) := by
      rcases ht with ⟨rfl, rfl⟩ | ⟨rfl, esc, hbk, he⟩
      · exact Lx.app b _ op _ c _ _ (lx_op hop (.inl rfl)) ((Lx.sp (r3 c hc)).at (by rw [op_nl hop]; rfl))
      · refine Lx.app b _ op _ c _ _ (lx_op hop ?_) ((lx_brk he hbk (r3 c hc)).at (by rw [op_nl hop]; rfl))
        obtain ⟨m, rfl⟩ := hbk
        cases esc
        · right; rfl
        · left; rfl
    have := Lx.appT (s2 := 32 :: (op ++ (t ++ s2))) (c := c) q3 follow32 (Lx.sp hmid)
    simpa using this)
  exact h3
end

end Verif.Again
