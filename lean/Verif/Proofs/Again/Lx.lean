import Verif.Proofs.Again.GenS
import Verif.Proofs.LexLine
/-
How pieces of printed text are read by the lexer, with the lines of the tokens (`Lx`).
-/
namespace Verif.Again
open Verif Verif.Syntax Verif.Lexer Verif.Print Verif.Round

theorem foldl_line (t : Bytes) : ∀ p : Pos, (t.foldl advPos p).line = p.line + nl t := by
  induction t with
  | nil => intro p; rfl
  | cons c t ih =>
    intro p
    rw [List.foldl_cons, ih, nl_cons]
    unfold advPos
    split
    · dsimp only; omega
    · dsimp only; omega

theorem adv_line (st : State) (t r : Bytes) : (st.adv t r).pos.line = st.pos.line + nl t := foldl_line t _

/-- `Lx b ln s c as`: the text `s` that starts on line `ln`, followed by `c`, is read as the tokens `as`; `b`: inside brackets. -/
inductive Lx : Bool → Nat → Bytes → UInt8 → List LTok → Prop
  | nil (b ln c) : Lx b ln [] c []
  | space (b ln c) : Lx b ln [32] c []
  | newline (ln c) : Lx true ln [10] c []
  | cont (b ln c) : Lx b ln [92, 10] c []
  | tok (b ln t c a) : TextTok t c a → depthChange a.kind = 0 → Lx b ln t c [(a, mark a.kind ln)]
  | group (b ln o cl s c as) : (o = 40 ∨ o = 91 ∨ o = 123) → (cl = 41 ∨ cl = 93 ∨ cl = 125) → Lx true ln s cl as →
      Lx b ln (o :: (s ++ [cl])) c (W ln o.toNat [o] :: (as ++ [W (ln + nl s) cl.toNat [cl]]))
  | app (b ln s1 s2 c as1 as2) : Lx b ln s1 (s2.headD c) as1 → Lx b (ln + nl s1) s2 c as2 → Lx b ln (s1 ++ s2) c (as1 ++ as2)

theorem nl_open {o : UInt8} (h : o = 40 ∨ o = 91 ∨ o = 123) : nl [o] = 0 := by rcases h with rfl | rfl | rfl <;> rfl
theorem nl_close {o : UInt8} (h : o = 41 ∨ o = 93 ∨ o = 125) : nl [o] = 0 := by rcases h with rfl | rfl | rfl <;> rfl

theorem lx_spec {b : Bool} {ln : Nat} {s : Bytes} {c : UInt8} {as : List LTok} (h : Lx b ln s c as) : ∀ (st : State) (r : Bytes), st.rest = s ++ c :: r →
    st.pos.line = ln → Ready b st →
    ∃ ts st', ts.map absL = as ∧ st'.pos.line = ln + nl s ∧ st'.rest = c :: r ∧ Ready b st' ∧ st'.depth = st.depth ∧ st'.indents = st.indents ∧ st'.lineComments = st.lineComments ∧
      st'.suffixComments = st.suffixComments ∧ (∀ ts2 stf, LexTo st' ts2 stf → LexTo st (ts ++ ts2) stf) := by
  induction h with
  | nil b ln c => intro st r hr hl hb; exact ⟨[], st, rfl, hl, hr, hb, rfl, rfl, rfl, rfl, fun _ _ h => h⟩
  | space b ln c =>
    intro st r hr hl hb
    have key : ∀ st1 : State, st1.depth = st.depth → st1.clean = st.clean → Ready b st1 := by
      intro st1 h1 h2; unfold Ready at hb ⊢; rw [h1, h2]; exact hb
    refine ⟨[], _, rfl, ?_, ?_, ?_, ?_, ?_, ?_, ?_, fun ts2 stf h => LexTo.skip0 (by split <;> rfl) (fun nl => lexN_space hr nl) h⟩
    · rw [adv_line, ← hl]; split <;> rfl
    · rfl
    · apply key <;> split <;> rfl
    all_goals (split <;> rfl)
  | newline ln c =>
    intro st r hr hl hb
    have hd : st.depth ≠ 0 := by have : 0 < st.depth := hb; omega
    refine ⟨[], { st with indent := 0, clean := true }.adv [10] (c :: r), rfl, ?_, rfl, hb, rfl, rfl, rfl, rfl, fun ts2 stf h =>
      LexTo.skip (fun nl _ => ⟨nl + 1, lexN_newline hr hd nl, fun e => absurd e hd⟩) h⟩
    rw [adv_line, ← hl]
  | cont b ln c =>
    intro st r hr hl hb
    refine ⟨[], st.adv [92, 10] (c :: r), rfl, ?_, rfl, hb, rfl, rfl, rfl, rfl, fun ts2 stf h => LexTo.skip0 (st' := st.adv [92, 10] (c :: r)) rfl (fun nl => lexN_cont hr nl) h⟩
    rw [adv_line, ← hl]
  | tok b ln t c a ht hd =>
    intro st r hr hln hb
    obtain ⟨e1, x, r0, rfl, hs⟩ := ht
    have hr' : st.rest = x :: (r0 ++ c :: r) := hr
    have hready : st.depth = 0 → st.clean = true → st.indent = st.currentIndent := by
      intro h1 h2
      unfold Ready at hb
      cases b with
      | true => simp at hb; omega
      | false => simp at hb; rw [hb.2] at h2; cases h2
    have hl := fun nl => lexN_tok (hs r) hr' hready nl
    refine ⟨[_], _, ?_, ?_, ?_, ?_, ?_, ?_, ?_, ?_, fun ts2 stf h => LexTo.tok hl ?_ h⟩
    · obtain ⟨k, t, s, tr⟩ := a
      simp only at e1
      rw [e1, ← hln]
      rfl
    · rw [← hln]; exact foldl_line _ _
    · rfl
    · unfold Ready at hb ⊢
      cases b with
      | true => simp at hb ⊢; rw [hd]; omega
      | false => simp at hb ⊢; rw [hd]; refine ⟨by omega, rfl⟩
    · show st.depth + depthChange a.kind = st.depth
      rw [hd]; omega
    · rfl
    · rfl
    · rfl
    · show a.kind ≠ K.eof
      intro he
      have := (Props.Lexer.scanTok_spec x _ _ (hs r) {})
      have hk : ({ kind := a.kind, text := x :: r0, str := a.str, triple := a.triple, rest := c :: r : Scanned }).kind ≠ K.eof := this.2.2.2.1
      exact hk he
  | group b ln o cl s c as ho hcl hs ih =>
    intro st r hr hln hb
    have hr1 : st.rest = o :: (s ++ cl :: c :: r) := by rw [hr]; simp
    have hready : st.depth = 0 → st.clean = true → st.indent = st.currentIndent := by
      intro h1 h2
      unfold Ready at hb
      cases b with
      | true => simp at hb; omega
      | false => simp at hb; rw [hb.2] at h2; cases h2
    have hl := fun nl => lexN_tok (scan_open ho (s ++ cl :: c :: r)) hr1 hready nl
    have hdo : depthChange o.toNat = 1 := by rcases ho with rfl | rfl | rfl <;> rfl
    have hdc : depthChange cl.toNat = -1 := by rcases hcl with rfl | rfl | rfl <;> rfl
    have hdep : 0 ≤ st.depth := by
      unfold Ready at hb
      cases b with
      | true => simp at hb; omega
      | false => simp at hb; omega
    obtain ⟨ts, st', h1, hln', h2, h3, h4, h5, h5a, h5b, h6⟩ := ih { ({ st with clean := false } : State).adv [o] (s ++ cl :: c :: r) with depth := st.depth + depthChange o.toNat } (c :: r) rfl
      (by show (List.foldl advPos st.pos [o]).line = ln; rw [foldl_line, nl_open ho, hln]; rfl) (show 0 < st.depth + depthChange o.toNat by rw [hdo]; omega)
    have hl2 := fun nl => lexN_tok (st := st') (scan_close hcl (c :: r)) h2 (by intro h; rw [h4] at h; simp only [hdo] at h; omega) nl
    have h4' : st'.depth = st.depth + 1 := by rw [h4]; show st.depth + depthChange o.toNat = _; rw [hdo]
    refine ⟨{ kind := o.toNat, pos := st.pos, tok := [o] } :: (ts ++ [{ kind := cl.toNat, pos := st'.pos, tok := [cl] }]),
      { ({ st' with clean := false } : State).adv [cl] (c :: r) with depth := st'.depth + depthChange cl.toNat }, ?_, ?_, ?_, ?_, ?_, ?_, ?_, ?_, fun ts2 stf h => ?_⟩
    rotate_left 8
    · rw [List.cons_append, List.append_assoc]
      refine LexTo.tok hl ?_ (h6 _ _ (LexTo.tok hl2 ?_ h))
      · show o.toNat ≠ K.eof
        rcases ho with rfl | rfl | rfl <;> decide
      · show cl.toNat ≠ K.eof
        rcases hcl with rfl | rfl | rfl <;> decide
    · rw [List.map_cons, List.map_append, h1, ← hln', ← hln]
      rfl
    · show (List.foldl advPos st'.pos [cl]).line = _
      rw [foldl_line, nl_close hcl, hln', nl_cons, nl_append, nl_close hcl, if_neg (by rcases ho with rfl | rfl | rfl <;> decide)]
      rfl
    · rfl
    · unfold Ready at hb ⊢
      cases b with
      | true => simp at hb ⊢; rw [hdc, h4']; omega
      | false => simp at hb ⊢; rw [hdc, h4']; refine ⟨by omega, rfl⟩
    · show st'.depth + depthChange cl.toNat = _
      rw [hdc, h4']; omega
    · exact h5
    · exact h5a
    · exact h5b
  | app b ln s1 s2 c as1 as2 _ _ ih1 ih2 =>
    intro st r hr hl hb
    obtain ⟨r', hr'⟩ := head_app s2 c r
    obtain ⟨ts1, st1, h1, hl1, h2, h3, h4, h5, h5a, h5b, h6⟩ := ih1 st r' (by rw [hr, List.append_assoc, hr']) hl hb
    obtain ⟨ts2, st2, g1, hl2, g2, g3, g4, g5, g5a, g5b, g6⟩ := ih2 st1 r (by rw [h2, ← hr']) hl1 h3
    refine ⟨ts1 ++ ts2, st2, by rw [List.map_append, h1, g1], by rw [hl2, nl_append]; omega, g2, g3, g4.trans h4, g5.trans h5, g5a.trans h5a, g5b.trans h5b, fun ts stf h => ?_⟩
    rw [List.append_assoc]
    exact h6 _ _ (g6 _ _ h)

/-! ## Lines -/

/-- the text `s`, starting on line `ln`, is read as the tokens `as`, whatever the printer writes next -/
def T (b : Bool) (ln : Nat) (s : Bytes) (as : List LTok) : Prop := ∀ c, Follow c → Lx b ln s c as

/-- `LS m ln s n as`: at indentation `m` outside brackets, the text `s` that starts on line `ln`, followed by `n` line ends, is read as the tokens `as`. What comes
next is indented by `m'` and is not blank, or is the end of the input. -/
def LS (m ln : Nat) (s : Bytes) (n : Nat) (as : List LTok) : Prop :=
  ∀ (st : State) (r : Bytes) (m' : Nat), st.rest = s ++ (List.replicate n 10 ++ (spaces m' ++ r)) → st.pos.line = ln → (r = [] ∧ m' = 0 ∨ StartOK r) → st.depth = 0 →
    st.currentIndent = m → (st.clean = true → st.indent = m) → m' ≤ m →
    ∃ ts st', ts.map absL = as ∧ st'.pos.line = ln + (nl s + n) ∧ st'.rest = r ∧ st'.depth = 0 ∧ st'.clean = true ∧ st'.indent = m' ∧ st'.indents = st.indents ∧
      st'.lineComments = st.lineComments ∧ st'.suffixComments = st.suffixComments ∧ ∀ ts2 stf, LexTo st' ts2 stf → LexTo st (ts ++ ts2) stf

/-- the blanks at the start of a line -/
theorem lex_spaces : ∀ (n : Nat) (st : State) (r : Bytes), st.rest = spaces n ++ r → st.clean = true →
    ∃ st', st'.pos.line = st.pos.line ∧ st'.rest = r ∧ st'.depth = st.depth ∧ st'.clean = true ∧ st'.indent = st.indent + n ∧ st'.indents = st.indents ∧
      st'.lineComments = st.lineComments ∧ st'.suffixComments = st.suffixComments ∧ ∀ ts stf, LexTo st' ts stf → LexTo st ts stf := by
  intro n
  induction n with
  | zero => intro st r hr hc; exact ⟨st, rfl, hr, rfl, hc, rfl, rfl, rfl, rfl, fun _ _ h => h⟩
  | succ n ih =>
    intro st r hr hc
    have hr' : st.rest = 32 :: (spaces n ++ r) := hr
    have hif : (if st.clean then { st with indent := st.indent + 1 } else st) = { st with indent := st.indent + 1 } := by rw [if_pos hc]
    have hs : ∀ nl, lexN nl st = lexN nl ({ st with indent := st.indent + 1 }.adv [32] (spaces n ++ r)) := fun nl => by rw [lexN_space hr' nl, hif]
    obtain ⟨st', h0, h1, h2, h3, h4, h5, h6, h7, h8⟩ := ih ({ st with indent := st.indent + 1 }.adv [32] (spaces n ++ r)) r rfl hc
    refine ⟨st', ?_, h1, h2, h3, ?_, h5, h6, h7, fun ts stf h => LexTo.skip0 (by rfl) (fun nl => hs nl) (h8 ts stf h)⟩
    · rw [h0, adv_line]; rfl
    · rw [h4]
      show st.indent + 1 + n = _
      omega

/-- line ends and the blanks after them -/
theorem lex_lines : ∀ (n : Nat) (st : State) (m : Nat) (r : Bytes), st.rest = List.replicate (n + 1) 10 ++ (spaces m ++ r) → st.depth = 0 →
    ∃ ts st', ts.map absL = List.replicate (n + 1) NL ∧ st'.pos.line = st.pos.line + (n + 1) ∧ st'.rest = r ∧ st'.depth = 0 ∧ st'.clean = true ∧ st'.indent = m ∧ st'.indents = st.indents ∧
      st'.lineComments = st.lineComments ∧ st'.suffixComments = st.suffixComments ∧ ∀ ts2 stf, LexTo st' ts2 stf → LexTo st (ts ++ ts2) stf := by
  intro n
  induction n with
  | zero =>
    intro st m r hr hd
    have hr' : st.rest = 10 :: (spaces m ++ r) := hr
    obtain ⟨st', h0, h1, h2, h3, h4, h5, h6, h7, h8⟩ := lex_spaces m ({ st with indent := 0, clean := true }.adv [10] (spaces m ++ r)) r rfl rfl
    refine ⟨[_], st', ?_, ?_, h1, h2.trans hd, h3, ?_, h5, h6, h7, fun ts2 stf h => LexTo.tok (fun nl => lexN_newline0 hr' hd nl) (by show K.newline ≠ K.eof; decide) (h8 ts2 stf h)⟩
    · rfl
    · rw [h0, adv_line]; rfl
    · rw [h4]; show 0 + m = m; omega
  | succ n ih =>
    intro st m r hr hd
    have hr' : st.rest = 10 :: (List.replicate (n + 1) 10 ++ (spaces m ++ r)) := hr
    obtain ⟨ts, st', h0, hl, h1, h2, h3, h4, h5, h6, h7, h8⟩ := ih ({ st with indent := 0, clean := true }.adv [10] (List.replicate (n + 1) 10 ++ (spaces m ++ r))) m r rfl hd
    refine ⟨{ kind := K.newline, pos := st.pos, tok := [10] } :: ts, st', ?_, ?_, h1, h2, h3, h4, h5, h6, h7, fun ts2 stf h => LexTo.tok (fun nl => lexN_newline0 hr' hd nl) (by show K.newline ≠ K.eof; decide) (h8 ts2 stf h)⟩
    · rw [List.map_cons, h0]
      rfl
    · rw [hl, adv_line]
      show st.pos.line + 1 + _ = _
      omega

/-- a text on one line (with its line breaks inside brackets or escaped) -/
theorem lex_text {ln : Nat} {s : Bytes} {as : List LTok} (hs : StartOK s) (ht : T false ln s as) {st : State} {r : Bytes} (hr : st.rest = s ++ 10 :: r) (hln : st.pos.line = ln) (hd : st.depth = 0)
    (hc : st.clean = true → st.indent = st.currentIndent) :
    ∃ ts st', ts.map absL = as ∧ st'.pos.line = ln + nl s ∧ st'.rest = 10 :: r ∧ st'.depth = 0 ∧ st'.indents = st.indents ∧ st'.lineComments = st.lineComments ∧
      st'.suffixComments = st.suffixComments ∧ ∀ ts2 stf, LexTo st' ts2 stf → LexTo st (ts ++ ts2) stf := by
  obtain ⟨x, s', rfl, hx⟩ := hs
  obtain ⟨ts, st', h1, h0, h2, h3, h4, h5, h6, h7, h8⟩ := lx_spec (ht 10 follow10) { st with clean := false } r hr hln ⟨hd, rfl⟩
  exact ⟨ts, st', h1, h0, h2, h4.trans hd, h5, h6, h7, fun ts2 stf h =>
    LexTo.skip0 (by rfl) (fun nl => lexN_first (r := s' ++ 10 :: r) hr hx hc nl) (h8 ts2 stf h)⟩

theorem ls_simple {m ln n : Nat} {s : Bytes} {as : List LTok} (hs : StartOK s) (ht : T false ln s as) : LS m ln s (n + 1) (as ++ List.replicate (n + 1) NL) := by
  intro st r m' hr hln hr0 hd hi hc hm
  obtain ⟨ts, st1, h1, h0, h2, h3, h4, h5, h6, h7⟩ := lex_text hs ht (st := st) (r := List.replicate n 10 ++ (spaces m' ++ r)) (by rw [hr, List.replicate_succ]; rfl) hln hd (fun h => (hc h).trans hi.symm)
  obtain ⟨ts', st2, g0, gl, g1, g2, g3, g4, g5, g6, g7, g8⟩ := lex_lines n st1 m' r h2 h3
  refine ⟨ts ++ ts', st2, ?_, ?_, g1, g2, g3, g4, g5.trans h4, g6.trans h5, g7.trans h6, fun ts2 stf h => ?_⟩
  · rw [List.map_append, h1, g0]
  · rw [gl, h0]; omega
  · rw [List.append_assoc]; exact h7 _ _ (g8 _ _ h)

theorem nl_replicate (n : Nat) : nl (List.replicate n 10) = n := by unfold nl; rw [List.count_replicate]; simp

theorem ls_seq {m ln j n : Nat} {s1 s2 : Bytes} {as1 as2 : List LTok} (h1 : LS m ln s1 j as1) (hs : StartOK s2) (h2 : LS m (ln + (nl s1 + j)) s2 n as2) :
    LS m ln (s1 ++ (List.replicate j 10 ++ (spaces m ++ s2))) n (as1 ++ as2) := by
  intro st r m' hr hln hr0 hd hi hc hm
  obtain ⟨ts1, st1, a0, al, a1, a2, a3, a4, a5, a6, a7, a8⟩ := h1 st (s2 ++ (List.replicate n 10 ++ (spaces m' ++ r))) m (by rw [hr]; simp) hln (.inr hs.app) hd hi hc (Nat.le_refl _)
  have hi1 : st1.currentIndent = m := by unfold State.currentIndent; rw [a5]; exact hi
  obtain ⟨ts2, st2, b0, bl, b1, b2, b3, b4, b5, b6, b7, b8⟩ := h2 st1 r m' a1 al hr0 a2 hi1 (fun _ => a4) hm
  refine ⟨ts1 ++ ts2, st2, ?_, ?_, b1, b2, b3, b4, b5.trans a5, b6.trans a6, b7.trans a7, fun ts stf h => ?_⟩
  · rw [List.map_append, a0, b0]
  · rw [bl, nl_append, nl_append, nl_append, nl_replicate, nl_spaces]; omega
  · rw [List.append_assoc]; exact a8 _ _ (b8 _ _ h)

/-- a header, then an indented block -/
theorem ls_block {m ln n : Nat} {h body : Bytes} {ah as : List LTok} (hh : StartOK h) (ht : T false ln h ah) (hb : StartOK body) (hl : LS (m + 4) (ln + (nl h + 1)) body n as) :
    LS m ln (h ++ (10 :: (spaces (m + 4) ++ body))) n (ah ++ (NL :: IND :: (as ++ [UNIND]))) := by
  intro st r m' hr hln hr0 hd hi hc hm
  obtain ⟨ts1, st1, a0, al, a1, a2, a3, a4, a5, a6⟩ := lex_text hh ht (st := st) (r := spaces (m + 4) ++ (body ++ (List.replicate n 10 ++ (spaces m' ++ r)))) (by rw [hr]; simp) hln hd (fun h => (hc h).trans hi.symm)
  obtain ⟨ts2, st2, b0, bl, b1, b2, b3, b4, b5, b6, b7, b8⟩ := lex_lines 0 st1 (m + 4) (body ++ (List.replicate n 10 ++ (spaces m' ++ r))) a1 a2
  have hi2 : st2.currentIndent = m := by unfold State.currentIndent; rw [b5, a3]; exact hi
  have hind : ∀ nl, lexN nl st2 = some ({ kind := K.indent, pos := st2.pos }, { st2 with indents := st2.indent :: st2.indents, clean := false }) := by
    intro nl
    obtain ⟨x, b', rfl, hx⟩ := hb
    unfold lexN
    rw [skip_start (r := b' ++ (List.replicate n 10 ++ (spaces m' ++ r))) b1 hx]
    dsimp only
    rw [if_pos (by rw [b2, b3]; rfl), if_pos (by rw [b4, hi2]; omega)]
  obtain ⟨ts3, st3, c0, cl, c1, c2, c3, c4, c5, c6, c7, c8⟩ := hl { st2 with indents := st2.indent :: st2.indents, clean := false } r m' b1 (by show st2.pos.line = _; rw [bl, al]; omega) hr0 b2
    (by show st2.indent = m + 4; exact b4) (by intro h; cases h) (by omega)
  have hi3 : st3.currentIndent = m + 4 := by unfold State.currentIndent; rw [c5]; exact b4
  have hdrop : st3.indents.drop 1 = st2.indents := by rw [c5]; rfl
  have hun : ∀ nl, lexN nl st3 = some ({ kind := K.unindent, pos := st3.pos }, { st3 with indents := st3.indents.drop 1 }) := by
    intro nl
    have hsk : skip (st3.rest.length + 1) st3 nl = .found st3 := by
      rcases hr0 with ⟨rfl, _⟩ | ⟨x, r', rfl, hx⟩
      · exact skip_end c1 _ _
      · exact skip_start c1 hx _ _
    unfold lexN
    rw [hsk]
    dsimp only
    have e1 : ({ st3 with indents := st3.indents.drop 1 } : State).currentIndent = m := by
      unfold State.currentIndent; dsimp only; rw [hdrop]; exact hi2
    rw [if_pos (by rw [c2, c3]; rfl), if_neg (by rw [c4, hi3]; omega), if_pos (by rw [c4, hi3]; omega), if_neg (by rw [e1, c4]; omega)]
  refine ⟨ts1 ++ (ts2 ++ ({ kind := K.indent, pos := st2.pos } :: (ts3 ++ [{ kind := K.unindent, pos := st3.pos }]))), { st3 with indents := st3.indents.drop 1 }, ?_, ?_, c1, c2, c3, c4, ?_, ?_, ?_,
    fun ts stf h => ?_⟩
  · rw [List.map_append, List.map_append, List.map_cons, List.map_append, a0, b0, c0]
    rfl
  · show st3.pos.line = _
    rw [cl, nl_append, nl_cons, nl_append, nl_spaces]
    simp only [if_true]
    omega
  · show st3.indents.drop 1 = _
    rw [hdrop, b5, a3]
  · exact c6.trans (b6.trans a4)
  · exact c7.trans (b7.trans a5)
  · rw [List.append_assoc, List.append_assoc, List.cons_append, List.append_assoc]
    exact a6 _ _ (b8 _ _ (LexTo.tok hind (by show K.indent ≠ K.eof; decide) (c8 _ _ (LexTo.tok hun (by show K.unindent ≠ K.eof; decide) h))))

end Verif.Again
