import Verif.Proofs.Again.PrintE2
/-
What the printer writes for an expression is read as an expression that is printed in the same way: comprehensions, load statements, bare tuples.
-/
namespace Verif.Again
open Verif Verif.Syntax Verif.Lexer Verif.Print Verif.Grammar Verif.Parser Verif.Round

section
variable {ft : FileType} {pr : Pr} (H : PrOK ft pr)
include H

/-! ## Comprehensions -/

theorem p_clauses {multi : Bool} : ∀ (cl : List Expr) (st0 st : St) (P : Bytes → Prop), (∀ a ∈ cl, OkClause a ∧ Fo a) → Adds st0 st P → (∀ s, P s → EndOK s) →
    Adds st0 (clauseElems pr multi cl st) (fun s => ∃ s0 s1, s = s0 ++ s1 ∧ P s0 ∧ EndOK s ∧ (∀ c, Follow c → Follow (s1.headD c)) ∧
      ∃ ass, All2 (ClauseG (RI ft pr)) (itemsK pr multi cl st) ass ∧ T true (line st) s1 ass.flatten) := by
  intro cl
  induction cl with
  | nil =>
    intro st0 st P _ h0 hp
    exact h0.mono (fun s p => ⟨s, [], by simp, p, hp s p, fun c h => h, [], .nil, fun c _ => Lx.nil ..⟩)
  | cons x cl ih =>
    intro st0 st P hcl h0 hp
    unfold clauseElems itemsK
    dsimp only
    have hc0 := h0.1
    have h1 : Adds st0 (if multi then breakline st else emit b!" " st) (fun s => ∃ s0 t, s = s0 ++ t ∧ P s0 ∧ (t = [32] ∨ ∃ esc, Brk esc t) ∧ line (if multi then breakline st else emit b!" " st) = line st + nl t) := by
      cases multi
      · exact h0.emit (fun s p => ⟨s, [32], rfl, p, .inl rfl, line_emit _ _⟩)
      · exact h0.breakline hp (fun s t p ht => ⟨s, t, rfl, p, .inr ⟨_, ht⟩, by rw [if_pos rfl, nl_brk ht]; exact line_breakline hc0⟩)
    generalize (if multi then breakline st else emit b!" " st) = st1 at h1 ⊢
    have h2 := h1.trans (fun hc => lined (H.clause x _ (hcl x (by simp)).1 (hcl x (by simp)).2 hc)) (R := fun s => ∃ s0 t s1, s = s0 ++ (t ++ s1) ∧ P s0 ∧ (t = [32] ∨ ∃ esc, Brk esc t) ∧ El true (line st + nl t) (ClauseG (RI ft pr)) (x, st1) s1 ∧
        line (pr x 0 st1) = line st + nl t + nl s1)
      (by rintro _ s2 ⟨s0, t, rfl, p, ht, e⟩ ⟨q, e2⟩; rw [e] at q e2; exact ⟨s0, t, s2, by simp, p, ht, q, e2⟩)
    refine (ih st0 _ _ (fun a ha => hcl a (by simp [ha])) h2 ?_).mono ?_
    · rintro _ ⟨s0, t, s1, rfl, _, _, ⟨he, _⟩, _⟩
      exact (he.app).app
    · rintro _ ⟨_, s2, rfl, ⟨s0, t, s1, rfl, p, ht, ⟨_, as, h3, h4⟩, e1⟩, hend, hf, ass, h5, h6⟩
      rw [e1] at h6
      refine ⟨s0, t ++ (s1 ++ s2), by simp, p, hend, fun c _ => ?_, as :: ass, .cons _ _ _ _ h4 h5, fun c hc => ?_⟩
      · rcases ht with rfl | ⟨esc, ht⟩
        · exact follow32
        · exact brk_head ht
      · have hr := Lx.appT h3 (hf c hc) (h6 c hc)
        rcases ht with rfl | ⟨esc, ht⟩
        · exact Lx.sp hr
        · rw [nl_brk ht] at hr
          exact lx_brk (fun h => by cases h) ht hr

theorem p_compr {curly : Bool} {bd : Expr} {cl fm en st} {B : It → List LTok → Prop} (he : en.comments = {}) (hb : ∀ st, Clean st → Adds st (pr bd 0 st) (El true (line st) B (bd, st)))
    (hcl : ∀ a ∈ cl, OkClause a ∧ Fo a) (hc : Clean st) :
    Adds st (listFor pr curly bd cl fm en st) (fun s => ∃ s1 as ass, s = (if curly then 123 else 91) :: (s1 ++ [if curly then 125 else 93]) ∧ T true (line st) s1 (as ++ ass.flatten) ∧ B (bd, lfOpen curly fm st) as ∧
      All2 (ClauseG (RI ft pr)) (itemsK pr fm cl (pr bd 0 (lfOpen curly fm st))) ass ∧ line (listFor pr curly bd cl fm en st) = line st + nl s1) := by
  rw [listFor_eq _ _ _ _ _ _ he]
  have ho32 : (if curly then (123 : UInt8) else 91) ≠ 32 := by cases curly <;> decide
  have h0 : Adds st (emit (if curly then b!"{" else b!"[") { st with depth := st.depth + 1 }) (· = [if curly then 123 else 91]) := by
    cases curly <;> exact Adds.emit0 hc rfl
  have hl0 : line (emit (if curly then b!"{" else b!"[") { st with depth := st.depth + 1 }) = line st := by
    have : ∀ cu : Bool, nl (if cu then b!"{" else b!"[") = 0 := by decide
    rw [line_emit, this]; rfl
  have h1 : Adds st (lfOpen curly fm st)
      (fun s => ∃ t, s = (if curly then 123 else 91) :: t ∧ (t = [] ∨ ∃ m, t = 10 :: spaces m) ∧ line (lfOpen curly fm st) = line st + nl t) := by
    cases fm
    · exact h0.mono (fun s e => ⟨[], e, .inl rfl, hl0⟩)
    · refine Adds.newline (st1 := { emit (if curly then b!"{" else b!"[") { st with depth := st.depth + 1 } with margin := st.margin + listIndentation }) h0 (by rintro _ rfl; exact EndOK.single ho32) ?_
      rintro _ m rfl
      refine ⟨10 :: spaces m, rfl, .inr ⟨m, rfl⟩, ?_⟩
      show line (newline { emit (if curly then b!"{" else b!"[") { st with depth := st.depth + 1 } with margin := st.margin + listIndentation }) = _
      rw [line_newline (by exact h0.1), nl_cons, nl_spaces]
      show line (emit (if curly then b!"{" else b!"[") { st with depth := st.depth + 1 }) + 1 = _
      rw [hl0]; rfl
  generalize lfOpen curly fm st = stb at h1 ⊢
  have h2 := h1.trans (fun hc' => lined (hb _ hc')) (R := fun s => ∃ t s1, s = (if curly then 123 else 91) :: (t ++ s1) ∧ (t = [] ∨ ∃ m, t = 10 :: spaces m) ∧ El true (line st + nl t) B (bd, stb) s1 ∧
      line (pr bd 0 stb) = line st + nl t + nl s1)
    (by rintro _ s2 ⟨t, rfl, ht, e⟩ ⟨q, e2⟩; rw [e] at q e2; exact ⟨t, s2, rfl, ht, q, e2⟩)
  have h3 := p_clauses H (multi := fm) cl st _ _ hcl h2 (by rintro _ ⟨t, s1, rfl, _, ⟨he, _⟩, _⟩; exact (he.app).cons)
  generalize hits : itemsK pr fm cl (pr bd 0 stb) = its at h3 ⊢
  generalize clauseElems pr fm cl (pr bd 0 stb) = stc at h3 ⊢
  have h4 : Adds st (lfEnd fm en stc)
      (fun s => ∃ s1 as ass, s = (if curly then 123 else 91) :: s1 ∧ T true (line st) s1 (as ++ ass.flatten) ∧ B (bd, stb) as ∧ All2 (ClauseG (RI ft pr)) its ass) := by
    have fin : ∀ (t s1 s2 u : Bytes) (as : List LTok) (ass : List (List LTok)), (t = [] ∨ ∃ m, t = 10 :: spaces m) → (u = [] ∨ ∃ m, u = 10 :: spaces m) → T true (line st + nl t) s1 as →
        (∀ c, Follow c → Follow (s2.headD c)) → T true (line st + nl t + nl s1) s2 ass.flatten → T true (line st) (t ++ (s1 ++ (s2 ++ u))) (as ++ ass.flatten) := by
      intro t s1 s2 u as ass ht hu h1 hf h2 c hc
      have hu' : ∀ ln, Lx true ln u c [] := by
        intro ln
        rcases hu with rfl | ⟨m, rfl⟩
        · exact Lx.nil ..
        · have := lx_nl m (Lx.nil true (ln + 1) c)
          simpa using this
      have hfu : Follow (u.headD c) := by
        rcases hu with rfl | ⟨m, rfl⟩
        · exact hc
        · exact follow10
      have h3 : Lx true (line st + nl t + nl s1) (s2 ++ u) c ass.flatten := (Lx.appT h2 hfu (hu' _)).cast (by simp)
      have hf2 : Follow ((s2 ++ u).headD c) := by
        cases s2 with
        | nil => exact hfu
        | cons x s2 => exact hf c hc
      have h4 := Lx.appT h1 hf2 h3
      rcases ht with rfl | ⟨m, rfl⟩
      · exact h4
      · rw [nl_cons, nl_spaces] at h4
        exact lx_nl m h4
    cases fm
    · refine h3.mono ?_
      rintro _ ⟨_, s2, rfl, ⟨t, s1, rfl, ht, ⟨_, as, r1, r2⟩, e1⟩, _, hf, ass, r3, r4⟩
      rw [e1] at r4
      refine ⟨t ++ (s1 ++ s2), as, ass, by simp, ?_, r2, r3⟩
      have := fin t s1 s2 [] as ass ht (.inl rfl) r1 hf r4
      simpa using this
    · unfold lfEnd
      rw [he]
      refine Adds.newline (st1 := { stc with margin := stc.margin - listIndentation }) h3 ?_ ?_
      · rintro _ ⟨_, s2, rfl, _, he, _⟩; exact he
      · rintro _ m ⟨_, s2, rfl, ⟨t, s1, rfl, ht, ⟨_, as, r1, r2⟩, e1⟩, _, hf, ass, r3, r4⟩
        rw [e1] at r4
        exact ⟨t ++ (s1 ++ (s2 ++ 10 :: spaces m)), as, ass, by simp, fin t s1 s2 _ as ass ht (.inr ⟨m, rfl⟩) r1 hf r4, r2, r3⟩
  have h5 : Adds st (lfClose curly (lfEnd fm en stc)) (fun s => ∃ s1 as ass, s = (if curly then 123 else 91) :: (s1 ++ [if curly then 125 else 93]) ∧ T true (line st) s1 (as ++ ass.flatten) ∧ B (bd, stb) as ∧
      All2 (ClauseG (RI ft pr)) its ass) := by
    have := h4.emit (t := if curly then b!"}" else b!"]") (R := fun s => ∃ s1 as ass, s = (if curly then 123 else 91) :: (s1 ++ [if curly then 125 else 93]) ∧ T true (line st) s1 (as ++ ass.flatten) ∧ B (bd, stb) as ∧
      All2 (ClauseG (RI ft pr)) its ass) (by
      rintro _ ⟨s1, as, ass, rfl, h⟩
      refine ⟨s1, as, ass, ?_, h⟩
      cases curly <;> rfl)
    exact this
  refine (lined h5).mono ?_
  rintro _ ⟨⟨s1, as, ass, rfl, q1, q2, q3⟩, q4⟩
  refine ⟨s1, as, ass, rfl, q1, q2, q3, ?_⟩
  rw [q4, nl_group (by cases curly <;> simp) (by cases curly <;> simp)]

omit H in
theorem itemsK_map : ∀ {multi : Bool} {l : List Expr} {st : St}, (itemsK pr multi l st).map (·.1) = l := by
  intro multi l
  induction l with
  | nil => intro st; rfl
  | cons x l ih => intro st; unfold itemsK; dsimp only; rw [List.map_cons, ih]

theorem p_listCompr {p bd cl fm en o b st} (he : en.comments = {}) (hb : Ok bd) (hfb : Fo bd) (hcl : ∀ a ∈ cl, OkClause a ∧ Fo a) (hf : forFirst cl = true) (ha : clausesApart cl = true)
    (hc : Clean st) : Adds st (listFor pr false bd cl fm en st) (Y b (line st) .primary (OE (fun y => RQ ft (.compr {} false p bd cl fm en) y o st (listFor pr false bd cl fm en st)))) := by
  refine (p_compr H (B := AnyG ft pr) (curly := false) (fm := fm) he (fun st hc => H.el hb hfb hc) hcl hc).mono ?_
  rintro _ ⟨s1, as, ass, rfl, h1, h2, h3, h4⟩
  obtain ⟨e1, e2⟩ := group_ends (s := s1) (o := 91) (cl := 93) (.inr (.inl rfl)) (.inr (.inl rfl))
  refine ⟨e1, e2, _, lx_group (.inr (.inl rfl)) (.inr (.inl rfl)) h1, g_listCompr h2 (g_clauses h3 (by rw [itemsK_map]; exact hf) (by rw [itemsK_map]; exact ha)) ?_⟩
  intro p' e' b' cl' hp he' hb' hcl'
  exact r_compr (b := bd) (e' := ⟨{}, e'⟩) he rfl hc rfl hb' hcl' hp (he'.trans h4.symm)

theorem p_dictCompr {p bd cl fm en o b st} (he : en.comments = {}) (hb : OkKV bd) (hfb : Fo bd) (hcl : ∀ a ∈ cl, OkClause a ∧ Fo a) (hf : forFirst cl = true) (ha : clausesApart cl = true)
    (hc : Clean st) : Adds st (listFor pr true bd cl fm en st) (Y b (line st) .primary (OE (fun y => RQ ft (.compr {} true p bd cl fm en) y o st (listFor pr true bd cl fm en st)))) := by
  refine (p_compr H (B := KvG ft pr) (curly := true) (fm := fm) he (fun st hc => H.kv bd st hb hfb hc) hcl hc).mono ?_
  rintro _ ⟨s1, as, ass, rfl, h1, h2, h3, h4⟩
  obtain ⟨e1, e2⟩ := group_ends (s := s1) (o := 123) (cl := 125) (.inr (.inr rfl)) (.inr (.inr rfl))
  refine ⟨e1, e2, _, lx_group (.inr (.inr rfl)) (.inr (.inr rfl)) h1, g_dictCompr h2 (g_clauses h3 (by rw [itemsK_map]; exact hf) (by rw [itemsK_map]; exact ha)) ?_⟩
  intro p' e' b' cl' hp he' hb' hcl'
  exact r_compr (b := bd) (e' := ⟨{}, e'⟩) he rfl hc rfl hb' hcl' hp (he'.trans h4.symm)

/-! ## Load statements -/

theorem p_load {p m fs ts r fc o b st} (ho : o ≤ 14) (hr : r.comments = {}) (hm : m.comments = {}) (hmt : m.token = [] ∨ Props.Quote.LexedToken m.token) (hn : fs ≠ [])
    (hlen : fs.length = ts.length) (h1 : ∀ n ∈ fs, n.comments = {}) (h2 : ∀ n ∈ ts, n.comments = {}) (h3 : ∀ q ∈ fs.zip ts, q.1.name = q.2.name ∨ Name q.2.name)
    (hfo : fc = true → (10 : UInt8) ∉ m.token ∧ (m.triple = true → (10 : UInt8) ∉ m.value)) (hc : Clean st) :
    Adds st (seq ft pr b!"(" b!")" p (.string m :: loadArgs fs ts) (some r) .load fc false (emit b!"load" st))
      (Y b (line st) .primary (OE (fun y => RQ ft (.load {} p m fs ts r fc) y o st (seq ft pr b!"(" b!")" p (.string m :: loadArgs fs ts) (some r) .load fc false (emit b!"load" st))))) := by
  have hl : ∀ x ∈ Expr.string m :: loadArgs fs ts, OkLoadArg x := by
    intro x hx
    rcases List.mem_cons.1 hx with rfl | hx
    · exact .string _ hm hmt
    · exact loadArgs_ok fs ts h1 h2 h3 x hx
  have h0 : Adds st (emit b!"load" st) (· = b!"load") := Adds.emit0 hc rfl
  have l0 : line (emit b!"load" st) = line st := line_emit0 (by decide) _
  refine h0.trans (fun hc' => seq_spec (elem := LoadIt pr) (m := .load) (o := 40) (c := 41) (by decide) (.inl rfl) (.inl rfl)
    (fun x hx => by cases hl x hx <;> rfl) (by rintro _ ⟨⟩; exact hr) (fun x hx st hc => H.load x st (hl x hx) hc) H.keep _ hc') ?_
  rintro _ _ rfl ⟨s1, as, rfl, ht, ⟨ass, tc, hA, rfl, hs⟩, hln⟩
  obtain ⟨e1, e2⟩ := group_ends (s := s1) (o := 40) (cl := 41) (.inl rfl) (.inl rfl)
  rw [l0] at ht
  have hmap : (items ft pr [40] p (.string m :: loadArgs fs ts) (some r) .load fc false (emit b!"load" st)).map (·.1) = .string m :: loadArgs fs ts := items_map
  have hA' := hA
  generalize hits : items ft pr [40] p (.string m :: loadArgs fs ts) (some r) .load fc false (emit b!"load" st) = its at hA hmap
  cases hA with
  | nil => cases hmap
  | cons it a its ass hit hrest =>
    simp only [List.map_cons, List.cons.injEq] at hmap
    obtain ⟨hm1, hm2⟩ := hmap
    have helem : All2 LoadElem (loadArgs fs ts) ass := by
      rw [← hm2]
      clear hits hm2 hA' hs ht
      induction hrest with
      | nil => exact .nil
      | cons x y l l' h1 _ ih => exact .cons _ _ _ _ h1.elem ih
    obtain ⟨_, hit⟩ := hit
    rw [hm1] at hit
    obtain ⟨t1, _, _, rfl⟩ := hit
    refine ⟨⟨108, _, rfl, by unfold Start; decide⟩, e2.app, _, fun c hc => lx_kw (k := K.load) ⟨⟨_, _, rfl, by decide, by decide⟩, by decide, by decide⟩ follow40
      (lx_group (.inl rfl) (.inl rfl) ht c hc), g_load (ln := line st) (z := line st + nl s1) (l1 := line st) hlen hn helem ?_⟩
    intro p' e' m' fs' ts' fc' hp he' hm' hf' ht' hfc' htc' hfcv
    refine r_load ho hc hr hmt hm hn hlen h1 h2 h3 hfo hA' hp (he'.trans ?_) hm' hf' ht' hfc' htc' ?_
    · rw [← l0]; exact hln.symm
    · rw [hfcv, l0]
      congr 1
      rw [← l0]; exact hln.symm

/-! ## Tuples without parentheses -/

abbrev FitG (ft : FileType) (pr : Pr) (it : It) (as : List LTok) : Prop := Gen as (.n (fits it.1 0)) (OE (RI ft pr it))

theorem p_bare {s l en fc fm b st} (he : en.comments = {}) (hn : l ≠ []) (hl : ∀ a ∈ l, Ok a) (hf : ∀ a ∈ l, Fo a) (hd : b = false → ∀ a ∈ l, tight a = true) (hc : Clean st) :
    Adds st (seq ft pr b!"(" b!")" s l (some en) .seq fc fm st) (fun s => StartOK s ∧ EndOK s ∧ ∃ ass, All2 (FitG ft pr) (itemsC pr true l { st with depth := st.depth + 1 }) ass ∧ T b (line st) s (joinC ass)) := by
  rw [seq_eq]
  have hfil : l.filter (fun x => !x.isNil) = l := List.filter_eq_self.2 (fun x hx => by simp [(hl x hx).isNil])
  rw [hfil]
  have hcomp : ∀ lv, useCompact ft lv s l (some en) .seq fc fm = true := by
    intro lv
    have h1 : l.any (fun x => !x.comments.before.isEmpty || (!x.comments.suffix.isEmpty && Mode.seq != .def_)) = false := by
      rw [List.any_eq_false]
      intro x hx
      rw [(hl x hx).comments]
      decide
    unfold useCompact
    rw [h1]
    simp only [he]
    rfl
  rw [hcomp]
  simp only [if_true]
  unfold seqCompact seqOpen seqClose
  simp only [if_true]
  rw [if_neg (by rintro ⟨_, h⟩; cases h)]
  have h0 : Adds st { st with depth := st.depth + 1 } (· = []) := Adds.refl hc
  have h1 := h0.trans (fun hc' => compact_spec (Q := StartOK) (elem := FitG ft pr) (b := b) (d := st.depth + 1) (fun _ _ h => h.app) hn (fun x hx st1 hc1 _ =>
    (H.ok x 0 b st1 (hl x hx) (hf x hx) (by omega) hc1 (fun hb => .inr (hd hb x hx))).mono (fun _ ⟨q1, q2, q3⟩ => ⟨q1, q2, q3⟩)) H.keep _ hc' rfl)
    (R := fun s => StartOK s ∧ EndOK s ∧ ∃ ass, All2 (FitG ft pr) (itemsC pr true l { st with depth := st.depth + 1 }) ass ∧ T b (line st) s (joinC ass)) (by rintro _ s2 rfl q; exact q)
  exact h1

omit H in
theorem same_ok {it : It} {as X} (hx : Ok it.1) (h : Gen as X (OE (RI ft pr it))) : Gen as X (fun v => isBare v.expr = false ∧ RI ft pr it v.expr) :=
  h.mono (fun _ q => ⟨same_bare q.same (ok_bare hx), q⟩)

theorem p_bareExpr {s x y l en fc fm o b st} (he : en.comments = {}) (hl : ∀ a ∈ x :: y :: l, Ok a) (hf : ∀ a ∈ x :: y :: l, Fo a) (hco : ∀ a ∈ y :: l, isCond a = false) (hc : Clean st)
    (hd : Dep b st (.tuple {} true s (x :: y :: l) en fc fm)) :
    Adds st (seq ft pr b!"(" b!")" s (x :: y :: l) (some en) .seq fc fm st)
      (Y b (line st) .expr (OE (fun z => RQ ft (.tuple {} true s (x :: y :: l) en fc fm) z o st (seq ft pr b!"(" b!")" s (x :: y :: l) (some en) .seq fc fm st)))) := by
  refine (p_bare H he (by simp) hl hf (fun hb => bare_dep hd hb) hc).mono ?_
  rintro t ⟨q1, q2, ass, q3, q4⟩
  refine ⟨q1, q2, _, q4, ?_⟩
  have hR : ∀ l', All2 (RI ft pr) (itemsC pr true (x :: y :: l) { st with depth := st.depth + 1 }) l' →
      RQ ft (.tuple {} true s (x :: y :: l) en fc fm) (.tuple {} true {} l' {} true false) o st (seq ft pr b!"(" b!")" s (x :: y :: l) (some en) .seq fc fm st) := fun l' h =>
    r_bare he rfl (by simp) (fun a ha => ⟨(hl a ha).isNil, (hl a ha).comments⟩) hc h
  have hlen : 2 ≤ (itemsC pr true (x :: y :: l) { st with depth := st.depth + 1 }).length := by simp [itemsC]
  have hmem : ∀ it ∈ itemsC pr true (x :: y :: l) { st with depth := st.depth + 1 }, it.1 ∈ x :: y :: l := fun it h => itemsC_mem h
  have hsnd : ∀ it ∈ (itemsC pr true (x :: y :: l) { st with depth := st.depth + 1 }).tail, it.1 ∈ y :: l := fun it h => itemsC_mem h
  generalize itemsC pr true (x :: y :: l) { st with depth := st.depth + 1 } = its at *
  cases q3 with
  | nil => simp at hlen
  | cons it a its ass hx hr =>
    rw [joinC_cons]
    refine (g_exprs (same_ok (hl _ (hmem it (by simp))) (fits_any (Nat.zero_le 2) (hl _ (hmem it (by simp))) hx)) (all2_mono hr (fun z hz as h => fits0_3 (hco z.1 (hsnd z hz)) (hl z.1 (List.mem_cons_of_mem _ (hsnd z hz))) h))).mono ?_
    intro v h
    obtain ⟨l', e, h'⟩ := h.se hlen
    show RQ ft _ v.expr o st _
    rw [e]
    exact hR l' h'

theorem p_bareVars {s x y l en fc fm o b st} (he : en.comments = {}) (hl : ∀ a ∈ x :: y :: l, Ok a) (hf : ∀ a ∈ x :: y :: l, Fo a) (hco : ∀ a ∈ x :: y :: l, isPrimary a = true) (hc : Clean st)
    (hd : Dep b st (.tuple {} true s (x :: y :: l) en fc fm)) :
    Adds st (seq ft pr b!"(" b!")" s (x :: y :: l) (some en) .seq fc fm st)
      (Y b (line st) .loopVars (OE (fun z => RQ ft (.tuple {} true s (x :: y :: l) en fc fm) z o st (seq ft pr b!"(" b!")" s (x :: y :: l) (some en) .seq fc fm st)))) := by
  refine (p_bare H he (by simp) hl hf (fun hb => bare_dep hd hb) hc).mono ?_
  rintro t ⟨q1, q2, ass, q3, q4⟩
  refine ⟨q1, q2, _, q4, ?_⟩
  have hR : ∀ l', All2 (RI ft pr) (itemsC pr true (x :: y :: l) { st with depth := st.depth + 1 }) l' →
      RQ ft (.tuple {} true s (x :: y :: l) en fc fm) (.tuple {} true {} l' {} true false) o st (seq ft pr b!"(" b!")" s (x :: y :: l) (some en) .seq fc fm st) := fun l' h =>
    r_bare he rfl (by simp) (fun a ha => ⟨(hl a ha).isNil, (hl a ha).comments⟩) hc h
  have hlen : 2 ≤ (itemsC pr true (x :: y :: l) { st with depth := st.depth + 1 }).length := by simp [itemsC]
  have hmem : ∀ it ∈ itemsC pr true (x :: y :: l) { st with depth := st.depth + 1 }, it.1 ∈ x :: y :: l := fun it h => itemsC_mem h
  generalize itemsC pr true (x :: y :: l) { st with depth := st.depth + 1 } = its at *
  cases q3 with
  | nil => simp at hlen
  | cons it a its ass hx hr =>
    rw [joinC_cons]
    refine (g_vars (same_ok (hl _ (hmem it (by simp))) (fits_var (hco _ (hmem it (by simp))) hx)) (all2_mono hr (fun z hz as h => fits_var (hco z.1 (hmem z (List.mem_cons_of_mem _ hz))) h))).mono ?_
    intro v h
    obtain ⟨l', e, h'⟩ := h.se hlen
    show RQ ft _ v.expr o st _
    rw [e]
    exact hR l' h'

end
end Verif.Again
