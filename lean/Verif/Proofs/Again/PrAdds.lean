import Verif.Proofs.Again.Lx
/-
What the printer appends to its output, with lines: sequences.
-/
namespace Verif.Again
open Verif Verif.Syntax Verif.Lexer Verif.Print Verif.Grammar Verif.Round

theorem lined {st st' : St} {P : Bytes → Prop} (h : Adds st st' P) : Adds st st' (fun s => P s ∧ line st' = line st + nl s) :=
  ⟨h.1, fun hb => by
    obtain ⟨a, s, b, c⟩ := h.2 hb
    refine ⟨a, s, b, c, ?_⟩
    unfold line
    rw [b, nl_append, nl_reverse]; omega⟩

/-! ## Reading -/

theorem Lx.cast {b ln s c as as'} (h : Lx b ln s c as) (e : as = as') : Lx b ln s c as' := e ▸ h
theorem Lx.castS {b ln s s' c as} (h : Lx b ln s c as) (e : s = s') : Lx b ln s' c as := e ▸ h
theorem Lx.at {b ln ln' s c as} (h : Lx b ln s c as) (e : ln = ln') : Lx b ln' s c as := e ▸ h
theorem T.cast {b ln s as as'} (h : T b ln s as) (e : as = as') : T b ln s as' := e ▸ h
theorem T.castS {b ln s s' as} (h : T b ln s as) (e : s = s') : T b ln s' as := e ▸ h
theorem T.at {b ln ln' s as} (h : T b ln s as) (e : ln = ln') : T b ln' s as := e ▸ h

/-- a token, then more -/
theorem Lx.pre {b ln t s c a as} (h : TextTok t (s.headD c) a) (hd : depthChange a.kind = 0) (h2 : Lx b (ln + nl t) s c as) : Lx b ln (t ++ s) c ((a, mark a.kind ln) :: as) :=
  Lx.app b ln t s c [(a, mark a.kind ln)] as (Lx.tok b ln t _ a h hd) h2

theorem Lx.pre0 {b ln t s c k as} (h : TextTok t (s.headD c) (Round.W k t)) (hd : depthChange k = 0) (hn : nl t = 0) (h2 : Lx b ln s c as) : Lx b ln (t ++ s) c (W ln k t :: as) :=
  Lx.pre h hd (by rw [hn]; exact h2)

/-- a blank, then more -/
theorem Lx.sp {b ln s c as} (h : Lx b ln s c as) : Lx b ln (32 :: s) c as := Lx.app b ln [32] s c [] as (Lx.space ..) h

/-- a text, then more -/
theorem Lx.appT {b ln s1 s2 c as1 as2} (h1 : T b ln s1 as1) (hf : Follow (s2.headD c)) (h2 : Lx b (ln + nl s1) s2 c as2) : Lx b ln (s1 ++ s2) c (as1 ++ as2) :=
  Lx.app b ln s1 s2 c as1 as2 (h1 _ hf) h2

theorem lx_spaces (b : Bool) (ln n : Nat) (c : UInt8) : Lx b ln (spaces n) c [] := by
  induction n with
  | zero => exact Lx.nil ..
  | succ n ih => exact Lx.sp ih

theorem lx_spaces_app {b : Bool} {ln s c as} (n : Nat) (h : Lx b ln s c as) : Lx b ln (spaces n ++ s) c as := by
  induction n with
  | zero => exact h
  | succ n ih => exact Lx.sp ih

theorem lx_nl {ln s c as} (m : Nat) (h : Lx true (ln + 1) s c as) : Lx true ln (10 :: (spaces m ++ s)) c as :=
  Lx.app true ln [10] (spaces m ++ s) c [] as (Lx.newline ..) (lx_spaces_app m h)

theorem lx_esc {b ln s c as} (m : Nat) (h : Lx b (ln + 1) s c as) : Lx b ln (32 :: 92 :: 10 :: (spaces m ++ s)) c as :=
  Lx.sp (Lx.app b ln [92, 10] (spaces m ++ s) c [] as (Lx.cont ..) (lx_spaces_app m h))

theorem lx_brk {b esc : Bool} {ln t s c as} (hb : b = false → esc = true) (ht : Brk esc t) (h : Lx b (ln + 1) s c as) : Lx b ln (t ++ s) c as := by
  obtain ⟨m, rfl⟩ := ht
  cases esc with
  | true => exact lx_esc m h
  | false =>
    cases b with
    | false => cases hb rfl
    | true => exact lx_nl m h

theorem nl_brk {esc : Bool} {t : Bytes} (ht : Brk esc t) : nl t = 1 := by
  obtain ⟨m, rfl⟩ := ht
  cases esc
  · simp only [Bool.false_eq_true, if_false]; rw [nl_cons, nl_spaces]; rfl
  · simp only [if_true]; rw [nl_cons, nl_cons, nl_cons, nl_spaces]; rfl

/-- the text `s` reads as tokens with property `P` -/
def YP (b : Bool) (ln : Nat) (P : List LTok → Prop) (s : Bytes) : Prop := StartOK s ∧ EndOK s ∧ ∃ as, T b ln s as ∧ P as

/-- `Y b ln x R s`: the text `s` on line `ln` reads as something of class `x` with value in `R`. -/
abbrev Y (b : Bool) (ln : Nat) (x : FNT) (R : Parser.Val → Prop) (s : Bytes) : Prop := YP b ln (fun as => Gen as (.n x) R) s

theorem YP.mono {b ln P Q s} (h : YP b ln P s) (h' : ∀ as, P as → Q as) : YP b ln Q s := by
  obtain ⟨h1, h2, as, h3, h4⟩ := h
  exact ⟨h1, h2, as, h3, h' as h4⟩

theorem YP.at {b ln ln' P s} (h : YP b ln P s) (e : ln = ln') : YP b ln' P s := e ▸ h

/-! ## Lists -/

/-- what is known about a printed element -/
def El (b : Bool) (ln : Nat) (elem : It → List LTok → Prop) (it : It) (s : Bytes) : Prop := EndOK s ∧ ∃ as, T b ln s as ∧ elem it as

theorem lx_comma {b ln s c as} (h : Lx b ln s c as) : Lx b ln (44 :: s) c (comma :: as) :=
  Lx.pre0 (t := b!",") (k := 44) (tok_single (by decide) _) (by decide) (by decide) h
theorem lx_colon {b ln s c as} (h : Lx b ln s c as) : Lx b ln (58 :: s) c (W ln 58 b!":" :: as) :=
  Lx.pre0 (t := b!":") (k := 58) (tok_single (by decide) _) (by decide) (by decide) h

section
variable {pr : Pr} {b : Bool} {elem : It → List LTok → Prop} {d : Nat}

theorem compact_rest {l : List Expr} (hx : ∀ x ∈ l, ∀ st, Clean st → st.depth = d → Adds st (pr x 0 st) (El b (line st) elem (x, st))) (hk : ∀ e o st, Keep st (pr e o st)) :
    ∀ st, Clean st → st.depth = d → Adds st (compactElems pr false l st) (fun s => (l = [] ∧ s = [] ∨ EndOK s ∧ ∃ r, s = 44 :: r) ∧
      ∃ ass, All2 elem (itemsC pr false l st) ass ∧ T b (line st) s (ass.flatMap (comma :: ·))) := by
  induction l with
  | nil => intro st hc _; exact (Adds.refl hc).mono (fun s e => ⟨.inl ⟨rfl, e⟩, [], .nil, fun c _ => by rw [e]; exact Lx.nil ..⟩)
  | cons x l ih =>
    intro st hc hd
    have hle : line (emit b!", " st) = line st := by rw [line_emit]; rfl
    have h0 : Adds st (emit b!", " st) (· = b!", ") := Adds.emit0 hc rfl
    have h1 : Adds st (pr x 0 (emit b!", " st)) (fun s => ∃ s', s = 44 :: 32 :: s' ∧ El b (line st) elem (x, emit b!", " st) s' ∧ line (pr x 0 (emit b!", " st)) = line st + nl s') :=
      h0.trans (fun h => lined (hx x (by simp) _ h hd)) (by rintro _ s2 rfl ⟨q, e⟩; rw [hle] at q e; exact ⟨s2, rfl, q, e⟩)
    refine h1.trans (fun h => ih (fun y hy => hx y (by simp [hy])) _ h (((hk _ _ _).1).trans hd)) ?_
    rintro _ s2 ⟨s', rfl, ⟨he, as, ht, hel⟩, hln⟩ ⟨h3, ass, h4, h5⟩
    have hfol : ∀ c, Follow c → Follow (s2.headD c) := by
      intro c hc
      rcases h3 with ⟨_, rfl⟩ | ⟨_, r, rfl⟩
      · exact hc
      · exact follow44
    refine ⟨.inr ⟨?_, _, rfl⟩, as :: ass, .cons _ _ _ _ hel h4, fun c hc => ?_⟩
    · rcases h3 with ⟨_, rfl⟩ | ⟨h, _⟩
      · rw [List.append_nil]; exact he.cons.cons
      · exact h.app
    · rw [hln] at h5
      have := lx_comma (Lx.sp (Lx.appT ht (hfol c hc) (h5 c hc)))
      simpa using this

theorem compact_spec {l : List Expr} {Q : Bytes → Prop} (hQ : ∀ s t, Q s → Q (s ++ t)) (hl : l ≠ [])
    (hx : ∀ x ∈ l, ∀ st, Clean st → st.depth = d → Adds st (pr x 0 st) (fun s => Q s ∧ El b (line st) elem (x, st) s))
    (hk : ∀ e o st, Keep st (pr e o st)) (st : St) (hc : Clean st) (hd : st.depth = d) :
    Adds st (compactElems pr true l st) (fun s => Q s ∧ EndOK s ∧ ∃ ass, All2 elem (itemsC pr true l st) ass ∧ T b (line st) s (joinC ass)) := by
  cases l with
  | nil => exact absurd rfl hl
  | cons x l =>
    refine (lined (hx x (by simp) st hc hd)).trans (fun h => compact_rest (fun y hy st hc hd => (hx y (by simp [hy]) st hc hd).mono (fun _ h => h.2)) hk _ h
      (((hk _ _ _).1).trans hd)) ?_
    rintro s s2 ⟨⟨hs, he, as, ht, hel⟩, hln⟩ ⟨h3, ass, h4, h5⟩
    have hfol : ∀ c, Follow c → Follow (s2.headD c) := by
      intro c hc
      rcases h3 with ⟨_, rfl⟩ | ⟨_, r, rfl⟩
      · exact hc
      · exact follow44
    refine ⟨hQ _ _ hs, ?_, as :: ass, .cons _ _ _ _ hel h4, fun c hc => ?_⟩
    · rcases h3 with ⟨_, rfl⟩ | ⟨h, _⟩
      · rw [List.append_nil]; exact he
      · exact h.app
    · rw [joinC_cons]
      rw [hln] at h5
      exact Lx.appT ht (hfol c hc) (h5 c hc)

theorem multi_spec {m : Mode} {l : List Expr} {first : Bool} (hx : ∀ x ∈ l, ∀ st, Clean st → st.depth = d → Adds st (pr x 0 st) (El true (line st) elem (x, st)))
    (hk : ∀ e o st, Keep st (pr e o st)) : ∀ {st0 st : St} {P : Bytes → Prop}, Adds st0 st P → (∀ s, P s → EndOK s) → st.depth = d →
    Adds st0 (multiElems pr m first l st) (fun s => ∃ s1 s2, s = s1 ++ s2 ∧ P s1 ∧ EndOK s ∧ ∃ ass tc, All2 elem (itemsM pr m first l st) ass ∧ T true (line st) s2 (joinC ass ++ tcomma tc) ∧
      (l = [] → tc = false ∧ s2 = []) ∧ (m = .paren ∨ m = .def_ → tc = false) ∧ (m = .tuple → l ≠ [] → tc = true) ∧ (l ≠ [] → ∃ r, s2 = 10 :: r)) := by
  induction l generalizing first with
  | nil =>
    intro st0 st P h hp _
    refine h.mono (fun s p => ⟨s, [], by simp, p, hp s p, [], false, .nil, fun c _ => Lx.nil .., fun _ => ⟨rfl, rfl⟩, fun _ => rfl, ?_, ?_⟩)
    · intro _ h; exact absurd rfl h
    · intro h; exact absurd rfl h
  | cons x l ih =>
    intro st0 st P h hp hd
    have hif : (if first && !st.comment.isEmpty then emit (10 :: spaces (st.margin - 2)) st else st) = st := by
      rw [h.1.1]; simp
    unfold multiElems itemsM
    dsimp only
    rw [hif]
    have hle : line (newline st) = line st + 1 := line_newline h.1
    have h1 : Adds st0 (newline st) (fun s => ∃ s1 k, s = s1 ++ 10 :: spaces k ∧ P s1) :=
      h.newline hp (fun s k p => ⟨s, k, rfl, p⟩)
    have hd1 : (newline st).depth = d := ((keep_newline st).1).trans hd
    have h2 : Adds st0 (pr x 0 (newline st)) (fun s => ∃ s1 k s', s = s1 ++ 10 :: (spaces k ++ s') ∧ P s1 ∧ El true (line st + 1) elem (x, newline st) s' ∧
        line (pr x 0 (newline st)) = line st + 1 + nl s') :=
      h1.trans (fun hc => lined (hx x (by simp) _ hc hd1)) (by rintro _ s2 ⟨s1, k, rfl, p⟩ ⟨q, e⟩; rw [hle] at q e; exact ⟨s1, k, s2, by simp, p, q, e⟩)
    cases hc : (!l.isEmpty || needsTrailingComma m x) with
    | false =>
      have hl : l = [] := by
        simp only [Bool.or_eq_false_iff, Bool.not_eq_false'] at hc
        simpa using hc.1
      subst hl
      simp only [Bool.false_eq_true, if_false]
      show Adds st0 (pr x 0 (newline st)) _
      refine h2.mono ?_
      rintro _ ⟨s1, k, s', rfl, p, ⟨he, as, ht, hel⟩, _⟩
      refine ⟨s1, 10 :: (spaces k ++ s'), rfl, p, EndOK.app (EndOK.cons (EndOK.app he)), [as], false, .cons _ _ _ _ hel .nil, fun c hc => ?_, ?_, fun _ => rfl, ?_, fun _ => ⟨_, rfl⟩⟩
      · have := lx_nl k (ht c hc)
        simpa [joinC, tcomma] using this
      · intro h; cases h
      · rintro rfl _
        cases hc
    | true =>
      simp only [if_true]
      have h3 : Adds st0 (emit b!"," (pr x 0 (newline st))) (fun s => ∃ s1 k s', s = s1 ++ 10 :: (spaces k ++ (s' ++ [44])) ∧ P s1 ∧ El true (line st + 1) elem (x, newline st) s' ∧
          line (pr x 0 (newline st)) = line st + 1 + nl s') :=
        h2.emit (by rintro _ ⟨s1, k, s', rfl, p, q⟩; exact ⟨s1, k, s', by simp, p, q⟩)
      have h4 := ih (first := false) (fun y hy => hx y (by simp [hy])) h3
        (by rintro _ ⟨s1, k, s', rfl, p, q⟩; exact EndOK.app (EndOK.cons (EndOK.app (EndOK.app (EndOK.single (by decide))))))
        (show (pr x 0 (newline st)).depth = d from ((hk _ _ _).1).trans hd1)
      refine h4.mono ?_
      rintro _ ⟨_, s2, rfl, ⟨s1, k, s', rfl, p, ⟨he, as, ht, hel⟩, hln⟩, hend, ass, tc, h5, h6, h7, h8, h9, h10⟩
      have hln2 : line (emit b!"," (pr x 0 (newline st))) = line st + 1 + nl s' := by rw [line_emit, hln]; rfl
      rw [hln2] at h6
      have hl : l = [] → ass = [] := by
        rintro rfl; cases h5; rfl
      by_cases hn : l = []
      · obtain rfl := hl hn
        obtain ⟨rfl, rfl⟩ := h7 hn
        refine ⟨s1, 10 :: (spaces k ++ (s' ++ [44])), by simp, p, hend, [as], true, ?_, fun c hc => ?_, ?_, ?_, fun _ _ => rfl, fun _ => ⟨_, rfl⟩⟩
        · subst hn; exact .cons _ _ _ _ hel .nil
        · have := lx_nl k (Lx.appT ht (s2 := [44]) (c := c) follow44 (lx_comma (Lx.nil true _ c)))
          simpa [joinC, tcomma] using this
        · intro h; cases h
        · intro hm
          subst hn
          simp only [List.isEmpty_nil, Bool.not_true, Bool.false_or] at hc
          rcases hm with rfl | rfl <;> simp [needsTrailingComma] at hc
      · refine ⟨s1, 10 :: (spaces k ++ (s' ++ (44 :: s2))), by simp, p, hend, as :: ass, tc, .cons _ _ _ _ hel h5, fun c hc => ?_, ?_, h8, fun hm _ => h9 hm hn, fun _ => ⟨_, rfl⟩⟩
        · have := lx_nl k (Lx.appT ht (s2 := 44 :: s2) (c := c) follow44 (lx_comma (h6 c hc)))
          refine this.cast ?_
          cases ass with
          | nil =>
            cases l with
            | nil => exact absurd rfl hn
            | cons => cases h5
          | cons a ass => simp [joinC]
        · intro h; cases h

theorem seq_spec {ft : FileType} {o c : UInt8} {start : Pos} {l : List Expr} {e : Option EndN} {m : Mode} {fc fm : Bool} (hm : m ≠ .seq)
    (ho : o = 40 ∨ o = 91 ∨ o = 123) (hcl : c = 41 ∨ c = 93 ∨ c = 125) (hnil : ∀ x ∈ l, x.isNil = false) (hend : ∀ en, e = some en → en.comments = {})
    (hx : ∀ x ∈ l, ∀ st, Clean st → Adds st (pr x 0 st) (El true (line st) elem (x, st))) (hk : ∀ e o st, Keep st (pr e o st)) (st : St) (hc : Clean st) :
    Adds st (seq ft pr [o] [c] start l e m fc fm st) (fun s => ∃ s1 as, s = o :: (s1 ++ [c]) ∧ T true (line st) s1 as ∧ SeqA elem m (items ft pr [o] start l e m fc fm st) as ∧
      line (seq ft pr [o] [c] start l e m fc fm st) = line st + nl s1) := by
  have hlast : ∀ st2 : St, Adds st st2 (fun s => ∃ s1 as, s = o :: (s1 ++ [c]) ∧ T true (line st) s1 as ∧ SeqA elem m (items ft pr [o] start l e m fc fm st) as) →
      Adds st st2 (fun s => ∃ s1 as, s = o :: (s1 ++ [c]) ∧ T true (line st) s1 as ∧ SeqA elem m (items ft pr [o] start l e m fc fm st) as ∧ line st2 = line st + nl s1) := by
    intro st2 h
    refine (lined h).mono ?_
    rintro _ ⟨⟨s1, as, rfl, h1, h2⟩, h3⟩
    refine ⟨s1, as, rfl, h1, h2, ?_⟩
    rw [h3, nl_cons, nl_append, nl_close hcl, if_neg (by rcases ho with rfl | rfl | rfl <;> decide)]
    rfl
  apply hlast
  have hlen0 : (items ft pr [o] start l e m fc fm st).length = l.length := by
    have := congrArg List.length (items_map (ft := ft) (pr := pr) (o := [o]) (start := start) (l := l) (e := e) (m := m) (fc := fc) (fm := fm) (st := st))
    simpa using this
  have hemp : (items ft pr [o] start l e m fc fm st) = [] ↔ l = [] := by
    rw [← List.length_eq_zero_iff, hlen0, List.length_eq_zero_iff]
  have hIt : items ft pr [o] start l e m fc fm st = if useCompact ft (seqOpen m [o] st).level start l e m fc fm then itemsC pr true l (seqOpen m [o] st)
      else itemsM pr m true l { seqOpen m [o] st with margin := (seqOpen m [o] st).margin + (if m = .def_ then defIndentation else listIndentation) } := rfl
  rw [seq_eq]
  have hfil : l.filter (fun x => !x.isNil) = l := List.filter_eq_self.2 (fun x hx => by simp [hnil x hx])
  rw [hfil]
  have hopen : Adds st (seqOpen m [o] st) (· = [o]) := by
    unfold seqOpen; rw [if_neg hm]
    exact Adds.emit0 hc rfl
  have hlo : line (seqOpen m [o] st) = line st := by
    unfold seqOpen; rw [if_neg hm]
    show line (emit [o] st) = _
    rw [line_emit, nl_open ho]; rfl
  have ho32 : o ≠ 32 := by rcases ho with rfl | rfl | rfl <;> decide
  have hclose : ∀ st2 : St, Adds st st2 (fun s => ∃ s1 as, s = o :: s1 ∧ T true (line st) s1 as ∧ SeqA elem m (items ft pr [o] start l e m fc fm st) as) →
      Adds st (seqClose m [c] st2) (fun s => ∃ s1 as, s = o :: (s1 ++ [c]) ∧ T true (line st) s1 as ∧ SeqA elem m (items ft pr [o] start l e m fc fm st) as) := by
    intro st2 h
    unfold seqClose; rw [if_neg hm]
    have h' : Adds st { st2 with depth := st2.depth - 1 } (fun s => ∃ s1 as, s = o :: s1 ∧ T true (line st) s1 as ∧ SeqA elem m (items ft pr [o] start l e m fc fm st) as) := h
    exact h'.emit (by rintro _ ⟨s1, as, rfl, h⟩; exact ⟨s1, as, rfl, h⟩)
  apply hclose
  by_cases hU : useCompact ft (seqOpen m [o] st).level start l e m fc fm = true
  · -- compact
    rw [if_pos hU] at hIt ⊢
    unfold seqCompact
    dsimp only
    by_cases hl : l = []
    · have hi := hemp.2 hl
      subst hl
      rw [if_neg (by rintro ⟨h, _⟩; simp at h)]
      refine hopen.mono ?_
      rintro _ rfl
      rw [hi]
      exact ⟨[], [], rfl, fun c _ => Lx.nil .., [], false, .nil, rfl, fun _ => rfl, fun _ => rfl, fun _ h => by simp at h⟩
    · have h1 : Adds st (compactElems pr true l (seqOpen m [o] st)) (fun s => ∃ s1, s = o :: s1 ∧ True ∧ EndOK s1 ∧ ∃ ass, All2 elem (items ft pr [o] start l e m fc fm st) ass ∧ T true (line st) s1 (joinC ass)) :=
        hopen.trans (fun hc' => compact_spec (Q := fun _ => True) (fun _ _ _ => trivial) hl (fun x hxm st hst _ => (hx x hxm st hst).mono (fun _ h => ⟨trivial, h⟩)) hk _ hc' rfl) (by
          rintro _ s2 rfl ⟨a, b, h⟩; rw [hlo, ← hIt] at h; exact ⟨s2, rfl, a, b, h⟩)
      by_cases h2 : l.length = 1 ∧ m = .tuple
      · rw [if_pos h2]
        refine h1.emit ?_
        rintro _ ⟨s1, rfl, _, he, ass, h3, h4⟩
        refine ⟨s1 ++ [44], joinC ass ++ tcomma true, rfl, fun c hc => ?_, ass, true, h3, rfl, fun h => absurd (hemp.1 h) hl, ?_, fun _ _ => rfl⟩
        · exact Lx.appT h4 (s2 := [44]) (c := c) follow44 (lx_comma (Lx.nil true _ c))
        · rintro (h | h) <;> (rw [h2.2] at h; cases h)
      · rw [if_neg h2]
        refine h1.mono ?_
        rintro _ ⟨s1, rfl, _, he, ass, h3, h4⟩
        refine ⟨s1, joinC ass, rfl, h4, ass, false, h3, by simp [tcomma], fun _ => rfl, fun _ => rfl, fun hm hl => absurd ⟨hlen0 ▸ hl, hm⟩ h2⟩
  · -- multi-line
    rw [if_neg hU] at hIt ⊢
    unfold seqMulti
    dsimp only
    have hE : ∀ st1 : St, seqEnd e st1 = st1 := by
      intro st1
      unfold seqEnd
      cases e with
      | none => rfl
      | some en => simp only; rw [hend en rfl]; rfl
    rw [hE]
    revert hIt
    generalize (if m = Mode.def_ then defIndentation else listIndentation) = ind
    intro hIt
    have h0 : Adds st { seqOpen m [o] st with margin := (seqOpen m [o] st).margin + ind } (· = [o]) := hopen
    have h1 := multi_spec (m := m) (first := true) (d := (seqOpen m [o] st).depth) (fun x hxm st hst _ => hx x hxm st hst) hk h0 (by rintro _ rfl; exact EndOK.single ho32) rfl
    have hl1 : line { seqOpen m [o] st with margin := (seqOpen m [o] st).margin + ind } = line st := hlo
    rw [← hIt, hl1] at h1
    by_cases hdef : m = .def_
    · rw [if_pos hdef]
      refine h1.mono ?_
      rintro _ ⟨_, s2, rfl, rfl, hend, ass, tc, h3, h4, h5, h6, h7, h8⟩
      exact ⟨s2, _, rfl, h4, ass, tc, h3, rfl, fun h => (h5 (hemp.1 h)).1, h6, fun h => by rw [hdef] at h; cases h⟩
    · rw [if_neg hdef]
      refine Adds.newline (st1 := { multiElems pr m true l { seqOpen m [o] st with margin := (seqOpen m [o] st).margin + ind } with
        margin := (multiElems pr m true l { seqOpen m [o] st with margin := (seqOpen m [o] st).margin + ind }).margin - ind }) h1 ?_ ?_
      · rintro _ ⟨_, s2, rfl, rfl, hend, _⟩; exact hend
      · rintro _ k ⟨_, s2, rfl, rfl, hend, ass, tc, h3, h4, h5, h6, h7, h8⟩
        refine ⟨s2 ++ 10 :: spaces k, _, by simp, fun c hc => ?_, ass, tc, h3, rfl, fun h => (h5 (hemp.1 h)).1, h6, fun h hl => h7 h (by rintro rfl; rw [hlen0] at hl; simp at hl)⟩
        have := Lx.appT h4 (s2 := 10 :: (spaces k ++ [])) (c := c) follow10 (lx_nl k (Lx.nil true _ c))
        simpa using this

end

end Verif.Again
