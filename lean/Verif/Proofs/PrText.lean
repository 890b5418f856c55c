import Verif.Proofs.GenE
/-
How single tokens are printed and read; parentheses; operators.
-/
namespace Verif.Round
open Verif Verif.Syntax Verif.Lexer Verif.Print Verif.Grammar Verif.Parser

/-! ## Texts -/

theorem endOK_of {t : Bytes} (hn : t ≠ []) (h : ∀ x ∈ t, x ≠ 32) : EndOK t := by
  refine ⟨t.dropLast, t.getLast hn, (List.dropLast_concat_getLast hn).symm, h _ (List.getLast_mem hn)⟩

theorem word_start {x : UInt8} (h : Props.Lexer.wordByte x) : Start x := by
  have h' := (Props.Lexer.isIdent_iff x).2 h
  have key : ∀ y ∈ ([61, 42, 62, 10, 32, 9, 13, 35, 92, 58] : List UInt8), isIdent y = false := by decide
  intro hm
  rw [key x hm] at h'
  cases h'

theorem start_ne {x : UInt8} (h : Start x) : x ≠ 61 ∧ x ≠ 42 ∧ x ≠ 62 ∧ x ≠ 10 ∧ x ≠ 32 := by
  refine ⟨?_, ?_, ?_, ?_, ?_⟩ <;> (rintro rfl; exact h (by decide))

theorem name_text {t : Bytes} (h : Name t) : StartOK t ∧ EndOK t := by
  obtain ⟨x, s, rfl, hx, _, hs, _⟩ := h
  refine ⟨⟨x, s, rfl, word_start hx⟩, endOK_of (by simp) ?_⟩
  intro y hy
  rcases List.mem_cons.1 hy with rfl | hy
  · exact (start_ne (word_start hx)).2.2.2.2
  · exact (start_ne (word_start (hs y hy))).2.2.2.2

theorem digits_ne {l : UInt8} {s : Bytes} (h : Digits l s) : ∀ y ∈ s, y ≠ 32 := by
  induction h with
  | nil => simp
  | word l c s hc _ ih =>
    intro y hy
    rcases List.mem_cons.1 hy with rfl | hy
    · exact (start_ne (word_start hc)).2.2.2.2
    · exact ih y hy
  | sign l c s hc _ _ ih =>
    intro y hy
    rcases List.mem_cons.1 hy with rfl | hy
    · rcases hc with rfl | rfl <;> decide
    · exact ih y hy

theorem int_text {t : Bytes} (h : IntText t) : StartOK t ∧ EndOK t := by
  obtain ⟨x, s, rfl, hx, hs⟩ := h
  have hw : Props.Lexer.wordByte x := .inl hx
  refine ⟨⟨x, s, rfl, word_start hw⟩, endOK_of (by simp) ?_⟩
  intro y hy
  rcases List.mem_cons.1 hy with rfl | hy
  · exact (start_ne (word_start hw)).2.2.2.2
  · exact digits_ne hs y hy

theorem good_lexed {t v : Bytes} {tr : Bool} (h : Props.Quote.GoodLiteral t v tr) : Props.Quote.LexedToken t :=
  ⟨t ++ [], [], h.2 [] (by simp) (by simp)⟩

theorem good_text {t v : Bytes} {tr : Bool} (h : Props.Quote.GoodLiteral t v tr) : StartOK t ∧ EndOK t := by
  obtain ⟨q, raw, t', hq, hQ, rfl⟩ := Props.Quote.lexed_shape (good_lexed h)
  have hs : Start q := by rcases hq with rfl | rfl <;> (unfold Start; decide)
  have he : q ≠ 32 := by rcases hq with rfl | rfl <;> decide
  have h1 : StartOK t' ∧ EndOK t' := by
    cases hQ with
    | single B _ => exact ⟨⟨q, B ++ [q], by simp, hs⟩, EndOK.app (EndOK.single he)⟩
    | triple B _ _ => exact ⟨⟨q, q :: q :: (B ++ [q, q, q]), by simp, hs⟩, EndOK.app ⟨[q, q], q, rfl, he⟩⟩
  refine ⟨?_, h1.2.app⟩
  cases raw with
  | true => exact ⟨114, t', rfl, by unfold Start; decide⟩
  | false => exact h1.1

theorem t_name {b t} (h : Name t) : T b t [W K.ident t] := fun _ hc => Lx.tok b t _ _ (tok_name h hc) rfl
theorem t_int {b t} (h : IntText t) : T b t [W K.int t] := fun _ hc => Lx.tok b t _ _ (tok_int h hc) rfl
theorem t_str {b t v tr} (h : Props.Quote.GoodLiteral t v tr) : T b t [⟨K.string, t, v, tr⟩] := fun _ hc => Lx.tok b t _ _ (tok_string h hc) rfl

theorem lx_dot {b s c as} (h : Lx b s c as) : Lx b (46 :: s) c (W 46 b!"." :: as) := Lx.pre (t := b!".") (tok_single (by decide) _) (by decide) h

theorem follow_plain {c : UInt8} (h : Follow c) : c ≠ 61 ∧ c ≠ 42 ∧ c ≠ 62 := by
  refine ⟨?_, ?_, ?_⟩ <;> (rintro rfl; revert h; unfold Follow; decide)

theorem tok_star {c : UInt8} (h1 : c ≠ 61) (h2 : c ≠ 42) : TextTok b!"*" c (W 42 b!"*") := by
  refine tok_op ⟨42, [], rfl, by decide, fun r => ?_⟩
  show scanOp 42 (c :: r) = _
  unfold scanOp
  have e1 : (c :: r).head? ≠ some 42 := by simpa using h2
  have e2 : (c :: r).head? ≠ some 61 := by simpa using h1
  rw [if_neg (by decide), if_neg (fun h => e1 h.2), if_neg (fun h => absurd h.1 (by decide)), if_neg (fun h => e1 h.1)]
  simp only
  rw [if_neg e2]
  rfl

theorem tok_plus {c : UInt8} (h1 : c ≠ 61) : TextTok b!"+" c (W 43 b!"+") := by
  refine tok_op ⟨43, [], rfl, by decide, fun r => ?_⟩
  show scanOp 43 (c :: r) = _
  unfold scanOp
  have e2 : (c :: r).head? ≠ some 61 := by simpa using h1
  rw [if_neg (by decide), if_neg (fun h => absurd h.1 (by decide)), if_neg (fun h => absurd h.1 (by decide)),
    if_neg (fun h => by rcases h.2 with h | h | h <;> exact absurd h (by decide))]
  simp only
  rw [if_neg e2]
  rfl

theorem tok_minus {c : UInt8} (h1 : c ≠ 61) (h2 : c ≠ 62) : TextTok b!"-" c (W 45 b!"-") := by
  refine tok_op ⟨45, [], rfl, by decide, fun r => ?_⟩
  show scanOp 45 (c :: r) = _
  unfold scanOp
  have e2 : (c :: r).head? ≠ some 61 := by simpa using h1
  rw [if_neg (by decide), if_neg (fun h => absurd h.1 (by decide)), if_neg (fun h => h2 (Option.some.inj h.2)),
    if_neg (fun h => by rcases h.2 with h | h | h <;> exact absurd h (by decide))]
  simp only
  rw [if_neg e2]
  rfl

theorem tok_tilde (c : UInt8) : TextTok b!"~" c (W 126 b!"~") := tok_op ⟨126, [], rfl, by decide, fun _ => rfl⟩
theorem tok_starStar (c : UInt8) : TextTok b!"**" c (W K.starStar b!"**") := tok_op ⟨42, [42], rfl, by decide, fun _ => rfl⟩

theorem lx_kw {b t s c as} {k : Kind} (h : (∃ x s, t = x :: s ∧ isIdent x = true ∧ s.all isIdent = true) ∧ identKind t = k ∧ depthChange k = 0)
    (hf : Follow (s.headD c)) (h2 : Lx b s c as) : Lx b (t ++ s) c (W k t :: as) :=
  Lx.pre (tok_kw h.1 h.2.1 hf) h.2.2 h2

/-- all operators between two operands -/
def allOps : List Bytes := binOps ++ isOps ++ assignOps ++ augOps

/-- an operator followed by a blank or a line break -/
theorem lx_op {b : Bool} {op : Bytes} {c : UInt8} (h : op ∈ allOps) (hc : c = 32 ∨ c = 10) : Lx b op c (opToks op) := by
  have hf : Follow c := by rcases hc with rfl | rfl; exact follow32; exact follow10
  have kw : ∀ (t : Bytes) (k : Kind), ((∃ x s, t = x :: s ∧ isIdent x = true ∧ s.all isIdent = true) ∧ identKind t = k ∧ depthChange k = 0) → Lx b t c [W k t] :=
    fun t k h => Lx.tok b t c _ (tok_kw h.1 h.2.1 hf) h.2.2
  have sy : ∀ (t : Bytes) (k : Kind), (∃ x s, t = x :: s ∧ isOpByte x = true ∧ ∀ c r, (c = 32 ∨ c = 10) → scanOp x (s ++ c :: r) = (k, t, c :: r)) → depthChange k = 0 → Lx b t c [W k t] :=
    fun t k ⟨x, s, e, h1, h2⟩ hd => Lx.tok b t c _ (tok_op ⟨x, s, e, h1, fun r => h2 c r hc⟩) hd
  have two : ∀ (t1 t2 : Bytes) (k1 k2 : Kind), ((∃ x s, t1 = x :: s ∧ isIdent x = true ∧ s.all isIdent = true) ∧ identKind t1 = k1 ∧ depthChange k1 = 0) →
      ((∃ x s, t2 = x :: s ∧ isIdent x = true ∧ s.all isIdent = true) ∧ identKind t2 = k2 ∧ depthChange k2 = 0) → Lx b (t1 ++ 32 :: t2) c [W k1 t1, W k2 t2] :=
    fun t1 t2 k1 k2 h1 h2 => lx_kw h1 follow32 (Lx.sp (kw t2 k2 h2))
  simp only [allOps, binOps, isOps, assignOps, augOps, List.cons_append, List.nil_append, List.mem_cons, List.not_mem_nil, or_false] at h
  rcases h with rfl | rfl | rfl | rfl | rfl | rfl | rfl | rfl | rfl | rfl | rfl | rfl | rfl | rfl | rfl | rfl | rfl | rfl | rfl | rfl | rfl | rfl | rfl |
    rfl | rfl | rfl | rfl | rfl | rfl | rfl | rfl | rfl | rfl | rfl | rfl
  · exact kw _ _ ⟨⟨_, _, rfl, by decide, by decide⟩, by decide, by decide⟩
  · exact kw _ _ ⟨⟨_, _, rfl, by decide, by decide⟩, by decide, by decide⟩
  · exact sy _ _ ⟨_, _, rfl, by decide, by rintro c r (rfl | rfl) <;> rfl⟩ (by decide)
  · exact sy _ _ ⟨_, _, rfl, by decide, by rintro c r (rfl | rfl) <;> rfl⟩ (by decide)
  · exact sy _ _ ⟨_, _, rfl, by decide, by rintro c r (rfl | rfl) <;> rfl⟩ (by decide)
  · exact sy _ _ ⟨_, _, rfl, by decide, by rintro c r (rfl | rfl) <;> rfl⟩ (by decide)
  · exact sy _ _ ⟨_, _, rfl, by decide, by rintro c r (rfl | rfl) <;> rfl⟩ (by decide)
  · exact sy _ _ ⟨_, _, rfl, by decide, by rintro c r (rfl | rfl) <;> rfl⟩ (by decide)
  · exact kw _ _ ⟨⟨_, _, rfl, by decide, by decide⟩, by decide, by decide⟩
  · exact two b!"not" b!"in" K.not K.in_ ⟨⟨_, _, rfl, by decide, by decide⟩, by decide, by decide⟩ ⟨⟨_, _, rfl, by decide, by decide⟩, by decide, by decide⟩
  · exact sy _ _ ⟨_, _, rfl, by decide, by rintro c r (rfl | rfl) <;> rfl⟩ (by decide)
  · exact sy _ _ ⟨_, _, rfl, by decide, by rintro c r (rfl | rfl) <;> rfl⟩ (by decide)
  · exact sy _ _ ⟨_, _, rfl, by decide, by rintro c r (rfl | rfl) <;> rfl⟩ (by decide)
  · exact sy _ _ ⟨_, _, rfl, by decide, by rintro c r (rfl | rfl) <;> rfl⟩ (by decide)
  · exact sy _ _ ⟨_, _, rfl, by decide, by rintro c r (rfl | rfl) <;> rfl⟩ (by decide)
  · exact sy _ _ ⟨_, _, rfl, by decide, by rintro c r (rfl | rfl) <;> rfl⟩ (by decide)
  · exact sy _ _ ⟨_, _, rfl, by decide, by rintro c r (rfl | rfl) <;> rfl⟩ (by decide)
  · exact sy _ _ ⟨_, _, rfl, by decide, by rintro c r (rfl | rfl) <;> rfl⟩ (by decide)
  · exact sy _ _ ⟨_, _, rfl, by decide, by rintro c r (rfl | rfl) <;> rfl⟩ (by decide)
  · exact sy _ _ ⟨_, _, rfl, by decide, by rintro c r (rfl | rfl) <;> rfl⟩ (by decide)
  · exact sy _ _ ⟨_, _, rfl, by decide, by rintro c r (rfl | rfl) <;> rfl⟩ (by decide)
  · exact kw _ _ ⟨⟨_, _, rfl, by decide, by decide⟩, by decide, by decide⟩
  · exact two b!"is" b!"not" K.is K.not ⟨⟨_, _, rfl, by decide, by decide⟩, by decide, by decide⟩ ⟨⟨_, _, rfl, by decide, by decide⟩, by decide, by decide⟩
  all_goals exact sy _ _ ⟨_, _, rfl, by decide, by rintro c r (rfl | rfl) <;> rfl⟩ (by decide)

theorem op_end {op : Bytes} (h : op ∈ allOps) : EndOK op := by
  have key : ∀ op ∈ allOps, ∃ h : op ≠ [], op.getLast h ≠ 32 := by decide
  obtain ⟨h1, h2⟩ := key op h
  exact ⟨op.dropLast, op.getLast h1, (List.dropLast_concat_getLast h1).symm, h2⟩

/-! ## Parentheses -/

/-- an expression `e` may contain line breaks only where the reader accepts them -/
def Dep (b : Bool) (st : St) (e : Expr) : Prop := b = false → (st.depth = 0 ∧ tupleTight e = true) ∨ tight e = true

theorem dep_true (st : St) (e : Expr) : Dep true st e := fun h => by cases h

theorem withParen_no {p o : Nat} {body : St → St} {st : St} (h : o ≤ p) : withParen p o body st = body st := by
  unfold withParen; rw [if_neg (by omega)]

theorem lx_group {b : Bool} {o cl : UInt8} {s : Bytes} {as : List ATok} (ho : o = 40 ∨ o = 91 ∨ o = 123) (hc : cl = 41 ∨ cl = 93 ∨ cl = 125)
    (h : T true s as) : T b (o :: (s ++ [cl])) (W o.toNat [o] :: (as ++ [W cl.toNat [cl]])) := by
  intro c _
  refine Lx.group b o cl s c as ho hc (h cl ?_)
  rcases hc with rfl | rfl | rfl
  · exact follow41
  · exact follow93
  · exact follow125

theorem group_ends {o cl : UInt8} {s : Bytes} (ho : o = 40 ∨ o = 91 ∨ o = 123) (hc : cl = 41 ∨ cl = 93 ∨ cl = 125) : StartOK (o :: (s ++ [cl])) ∧ EndOK (o :: (s ++ [cl])) := by
  refine ⟨⟨o, _, rfl, ?_⟩, EndOK.cons (EndOK.app (EndOK.single ?_))⟩
  · rcases ho with rfl | rfl | rfl <;> (unfold Start; decide)
  · rcases hc with rfl | rfl | rfl <;> decide

theorem withParen_spec {prec outer : Nat} {b : Bool} {st : St} {body : St → St} {e : Expr} {x : FNT} (hc : Clean st) (hd : Dep b st e)
    (hbody : ∀ b' st1, Clean st1 → Dep b' st1 e → Adds st1 (body st1) (Y b' x (SE e))) (hx : ∀ as, Gen as (.n x) (SE e) → Gen as (.n (.any 2)) (SE e)) :
    Adds st (withParen prec outer body st) (Y b (if prec < outer then .primary else x) (SE e)) := by
  unfold withParen
  by_cases h : prec < outer
  · rw [if_pos h, if_pos h]
    have h0 : Adds st { emit b!"(" st with depth := st.depth + 1 } (· = b!"(") := Adds.emit0 hc rfl
    have h1 := h0.trans (R := fun s => ∃ s1, s = 40 :: s1 ∧ Y true x (SE e) s1) (fun hc' => hbody true _ hc' (dep_true _ _)) (by
      rintro _ s2 rfl q; exact ⟨s2, rfl, q⟩)
    have h2 : Adds st { body { emit b!"(" st with depth := st.depth + 1 } with depth := (body { emit b!"(" st with depth := st.depth + 1 }).depth - 1 }
      (fun s => ∃ s1, s = 40 :: s1 ∧ Y true x (SE e) s1) := h1
    refine h2.emit ?_
    rintro _ ⟨s1, rfl, _, _, as, ht, hg⟩
    obtain ⟨e1, e2⟩ := group_ends (s := s1) (o := 40) (cl := 41) (.inl rfl) (.inl rfl)
    exact ⟨e1, e2, _, lx_group (.inl rfl) (.inl rfl) ht, g_added (hx _ hg)⟩
  · rw [if_neg h, if_neg h]
    exact hbody b st hc hd

/-! ## Operators -/

section
variable {pr : Pr} {b : Bool} {st : St} {x y : Expr} {px py : Nat} {op : Bytes} {lb : Bool} {mg : St → Nat} {P1 P2 : List ATok → Prop}

/-- what an infix operator prints -/
theorem infix_spec (hc : Clean st) (hk : ∀ e o st, Keep st (pr e o st)) (hop : op ∈ allOps)
    (hx : ∀ st1, Clean st1 → st1.depth = st.depth → Adds st1 (pr x px st1) (YP b P1))
    (hy : ∀ st1, Clean st1 → st1.depth = st.depth → Adds st1 (pr y py st1) (YP b P2))
    (hlb : lb = true → b = false → st.depth = 0) :
    Adds st (let m := st.margin
      let st := if lb then { st with margin := mg st } else st
      let st := emit (b!" " ++ op) (pr x px st)
      let st := if lb then breakline st else emit b!" " st
      { pr y py st with margin := m })
      (fun s => StartOK s ∧ EndOK s ∧ ∃ as1 as2, T b s (as1 ++ (opToks op ++ as2)) ∧ P1 as1 ∧ P2 as2) := by
  dsimp only
  have e1 := op_end hop
  have fin : ∀ (s1 t s2 : Bytes), YP b P1 s1 → (t = [32] ∨ ∃ esc, Brk esc t ∧ (b = false → esc = true)) → YP b P2 s2 →
      StartOK ((s1 ++ (b!" " ++ op)) ++ t ++ s2) ∧ EndOK ((s1 ++ (b!" " ++ op)) ++ t ++ s2) ∧
        ∃ as1 as2, T b ((s1 ++ (b!" " ++ op)) ++ t ++ s2) (as1 ++ (opToks op ++ as2)) ∧ P1 as1 ∧ P2 as2 := by
    rintro s1 t s2 ⟨q1, q2, as1, q3, q4⟩ ht ⟨r1, r2, as2, r3, r4⟩
    refine ⟨((q1.app).app).app, r2.app, as1, as2, fun c hc => ?_, q4, r4⟩
    have hmid : Lx b (op ++ (t ++ s2)) c (opToks op ++ as2) := by
      rcases ht with rfl | ⟨esc, hbk, he⟩
      · exact Lx.app b op _ c _ _ (lx_op hop (.inl rfl)) (Lx.sp (r3 c hc))
      · refine Lx.app b op _ c _ _ (lx_op hop ?_) (lx_brk he hbk (r3 c hc))
        obtain ⟨m, rfl⟩ := hbk
        cases esc
        · right; rfl
        · left; rfl
    have := Lx.appT (s2 := 32 :: (op ++ (t ++ s2))) (c := c) q3 follow32 (Lx.sp hmid)
    simpa using this
  cases lb with
  | false =>
    simp only [Bool.false_eq_true, if_false]
    have h1 := (hx st hc rfl).emit (t := b!" " ++ op) (R := fun s => ∃ s1, s = s1 ++ (b!" " ++ op) ∧ YP b P1 s1) (fun s q => ⟨s, rfl, q⟩)
    have h2 := h1.emit (t := b!" ") (R := fun s => ∃ s1, s = s1 ++ (b!" " ++ op) ++ [32] ∧ YP b P1 s1) (by rintro _ ⟨s, rfl, q⟩; exact ⟨s, rfl, q⟩)
    have h3 := h2.trans (fun hc' => hy _ hc' (hk _ _ _).1) (R := fun s => StartOK s ∧ EndOK s ∧ ∃ as1 as2, T b s (as1 ++ (opToks op ++ as2)) ∧ P1 as1 ∧ P2 as2) (by
      rintro _ s2 ⟨s1, rfl, q⟩ r
      exact fin s1 [32] s2 q (.inl rfl) r)
    exact h3
  | true =>
    simp only [if_true]
    have h0 : Adds st { st with margin := mg st } (· = []) := Adds.refl hc
    have h1 : Adds st (pr x px { st with margin := mg st }) (YP b P1) := h0.trans (fun hc' => hx _ hc' rfl) (by rintro _ s2 rfl q; exact q)
    have h1' := h1.emit (t := b!" " ++ op) (R := fun s => ∃ s1, s = s1 ++ (b!" " ++ op) ∧ YP b P1 s1) (fun s q => ⟨s, rfl, q⟩)
    have hd1 : (emit (b!" " ++ op) (pr x px { st with margin := mg st })).depth = st.depth := (hk _ _ _).1
    have h2 := h1'.breakline (R := fun s => ∃ s1 t, s = s1 ++ (b!" " ++ op) ++ t ∧ YP b P1 s1 ∧ ∃ esc, Brk esc t ∧ (b = false → esc = true))
      (by rintro _ ⟨s1, rfl, _⟩; exact (e1.app).app) (by
      rintro _ t ⟨s1, rfl, q⟩ ht
      refine ⟨s1, t, rfl, q, _, ht, fun hb => ?_⟩
      rw [hd1, hlb rfl hb]
      rfl)
    have h3 := h2.trans (fun hc' => hy _ hc' (((keep_breakline _).1).trans hd1)) (R := fun s => StartOK s ∧ EndOK s ∧ ∃ as1 as2, T b s (as1 ++ (opToks op ++ as2)) ∧ P1 as1 ∧ P2 as2) (by
      rintro _ s2 ⟨s1, t, rfl, q, ht⟩ r
      exact fin s1 t s2 q (.inr ht) r)
    exact h3
end

end Verif.Round
