import Verif.Proofs.LexC
import Verif.Proofs.PrintC
import Verif.Proofs.PrintComm
import Verif.Props.InsideSpec
/-
How pieces of printed text with comments inside brackets are read by the lexer (`Lx`): like Proofs/Lx.lean, but comments may stand at the ends of lines
inside brackets.
-/
namespace Verif.RoundI
open Verif Verif.Syntax Verif.Lexer Verif.Round

/-- `Lx b s c as`: the text `s`, followed by `c`, is read as the tokens `as`; `b`: inside brackets. -/
inductive Lx : Bool → Bytes → UInt8 → List ATok → Prop
  | nil (b c) : Lx b [] c []
  | space (b c) : Lx b [32] c []
  | newline (c) : Lx true [10] c []
  | comment (s) : ComText s → Lx true s 10 []
  | cont (b c) : Lx b [92, 10] c []
  | tok (b t c a) : TextTok t c a → depthChange a.kind = 0 → Lx b t c [a]
  | group (b o cl s c as) : (o = 40 ∨ o = 91 ∨ o = 123) → (cl = 41 ∨ cl = 93 ∨ cl = 125) → Lx true s cl as →
      Lx b (o :: (s ++ [cl])) c (W o.toNat [o] :: (as ++ [W cl.toNat [cl]]))
  | app (b s1 s2 c as1 as2) : Lx b s1 (s2.headD c) as1 → Lx b s2 c as2 → Lx b (s1 ++ s2) c (as1 ++ as2)


/-- what is read without comments is read here -/
theorem Lx.of {b s c as} (h : Round.Lx b s c as) : Lx b s c as := by
  induction h with
  | nil => exact .nil ..
  | space => exact .space ..
  | newline => exact .newline ..
  | cont => exact .cont ..
  | tok _ _ _ _ h1 h2 => exact .tok _ _ _ _ h1 h2
  | group _ _ _ _ _ _ h1 h2 _ ih => exact .group _ _ _ _ _ _ h1 h2 ih
  | app _ _ _ _ _ _ _ _ ih1 ih2 => exact .app _ _ _ _ _ _ ih1 ih2

/-- a comment inside brackets -/
theorem lexN_commentIn {st : State} {c r : Bytes} (hc : ComText c) (hr : st.rest = c ++ 10 :: r) (hd : st.depth ≠ 0) (nl : Nat) :
    ∃ st' nl', st'.rest = 10 :: r ∧ st'.depth = st.depth ∧ st'.indents = st.indents ∧ lexN nl st = lexN nl' st' := by
  obtain ⟨h1, h2⟩ := com_take hc r
  have hs : ∃ st' nl', st'.rest = 10 :: r ∧ st'.depth = st.depth ∧ st'.indents = st.indents ∧ ∀ f, skip (f + 1) st nl = skip f st' nl' := by
    have hc0 : c ++ 10 :: r = 35 :: (c.tail ++ 10 :: r) := by obtain ⟨t, rfl, _⟩ := hc; rfl
    cases hsf : isSuffixComment (st.done.takeWhile (· != 10))
    · refine ⟨{ ({ st with indent := 0, clean := true } : State).adv c (10 :: r) with
        lineComments := (if nl > 1 then st.lineComments ++ [⟨st.pos, []⟩] else st.lineComments) ++ [⟨st.pos, c⟩] }, 0, rfl, rfl, rfl, fun f => ?_⟩
      conv => lhs; unfold skip
      rw [hr, h1, h2, hc0]
      dsimp only
      rw [if_neg (by decide), if_neg (by decide), if_neg (by decide), if_pos (by decide), hsf, decide_eq_false hd]
      rfl
    · refine ⟨{ ({ st with indent := 0, clean := true } : State).adv c (10 :: r) with
        lineComments := (if nl > 1 then st.lineComments ++ [⟨st.pos, []⟩] else st.lineComments), suffixComments := st.suffixComments ++ [⟨st.pos, c⟩] }, 0, rfl, rfl, rfl, fun f => ?_⟩
      conv => lhs; unfold skip
      rw [hr, h1, h2, hc0]
      dsimp only
      rw [if_neg (by decide), if_neg (by decide), if_neg (by decide), if_pos (by decide), hsf, decide_eq_false hd]
      rfl
  obtain ⟨st', nl', e1, e2, e3, hs⟩ := hs
  refine ⟨st', nl', e1, e2, e3, ?_⟩
  unfold lexN
  have hlen : ∃ n, st.rest.length = n + 1 ∧ st'.rest.length ≤ n := by
    obtain ⟨t, rfl, _⟩ := hc; rw [hr, e1]; exact ⟨_, rfl, by simp⟩
  obtain ⟨n, hn, hn'⟩ := hlen
  rw [hs, hn, skip_mono (n + 1) (st'.rest.length + 1) st' nl' (by omega) (by omega)]

/-- from `st`, after `nl` line ends, the lexer delivers the tokens `ts` and ends in `stf` -/
def LexN (nl : Nat) (st : State) (ts : List Tok) (stf : State) : Prop := ∃ f, lexAllN nl f st = .ok ts stf

theorem LexN.tok {nl : Nat} {st st' stf : State} {t : Tok} {ts : List Tok} (h : lexN nl st = some (t, st')) (hk : t.kind ≠ K.eof) (h2 : LexN 0 st' ts stf) :
    LexN nl st (t :: ts) stf := by
  obtain ⟨f, hf⟩ := h2
  rw [lexAllN_zero] at hf
  refine ⟨f + 1, ?_⟩
  rw [lexAllN_succ, h]
  dsimp only
  rw [if_neg hk, hf]

theorem LexN.skip {nl nl' : Nat} {st st' stf : State} {ts : List Tok} (h : lexN nl st = lexN nl' st') (h2 : LexN nl' st' ts stf) : LexN nl st ts stf := by
  obtain ⟨f, hf⟩ := h2
  refine ⟨f, ?_⟩
  cases f with
  | zero => cases hf
  | succ f =>
    rw [lexAllN_succ] at hf ⊢
    rw [h]
    exact hf

theorem lx_specN {b : Bool} {s : Bytes} {c : UInt8} {as : List ATok} (h : Lx b s c as) : ∀ (st : State) (nl : Nat) (r : Bytes), st.rest = s ++ c :: r → Ready b st →
    (b = false → nl = 0) →
    ∃ ts st' nl', ts.map abs = as ∧ st'.rest = c :: r ∧ Ready b st' ∧ st'.depth = st.depth ∧ st'.indents = st.indents ∧ (b = false → nl' = 0) ∧
      (∀ ts2 stf, LexN nl' st' ts2 stf → LexN nl st (ts ++ ts2) stf) := by
  induction h with
  | nil b c => intro st nl r hr hb hn; exact ⟨[], st, nl, rfl, hr, hb, rfl, rfl, hn, fun _ _ h => h⟩
  | space b c =>
    intro st nl r hr hb hn
    have key : ∀ st1 : State, st1.depth = st.depth → st1.clean = st.clean → Ready b st1 := by
      intro st1 h1 h2; unfold Ready at hb ⊢; rw [h1, h2]; exact hb
    refine ⟨[], _, nl, rfl, ?_, ?_, ?_, ?_, hn, fun ts2 stf h => LexN.skip (lexN_space hr nl) h⟩
    · rfl
    · apply key <;> split <;> rfl
    all_goals (split <;> rfl)
  | newline c =>
    intro st nl r hr hb hn
    have hd : st.depth ≠ 0 := by have : 0 < st.depth := hb; omega
    exact ⟨[], { st with indent := 0, clean := true }.adv [10] (c :: r), nl + 1, rfl, rfl, hb, rfl, rfl, (fun h => by cases h), fun ts2 stf h =>
      LexN.skip (lexN_newline hr hd nl) h⟩
  | comment s hs =>
    intro st nl r hr hb hn
    have hd : st.depth ≠ 0 := by have : 0 < st.depth := hb; omega
    obtain ⟨st0, n0, e1, e2, e3, e4⟩ := lexN_commentIn hs hr hd nl
    exact ⟨[], st0, n0, rfl, e1, (by show 0 < st0.depth; rw [e2]; exact hb), e2, e3, (fun h => by cases h), fun ts2 stf h => LexN.skip e4 h⟩
  | cont b c =>
    intro st nl r hr hb hn
    exact ⟨[], st.adv [92, 10] (c :: r), nl, rfl, rfl, hb, rfl, rfl, hn, fun ts2 stf h => LexN.skip (lexN_cont hr nl) h⟩
  | tok b t c a ht hd =>
    intro st nl r hr hb hn
    obtain ⟨e1, x, r0, rfl, hs⟩ := ht
    have hr' : st.rest = x :: (r0 ++ c :: r) := hr
    have hready : st.depth = 0 → st.clean = true → st.indent = st.currentIndent := by
      intro h1 h2
      unfold Ready at hb
      cases b with
      | true => simp at hb; omega
      | false => simp at hb; rw [hb.2] at h2; cases h2
    have hl := lexN_tok (hs r) hr' hready nl
    refine ⟨[_], _, 0, ?_, ?_, ?_, ?_, ?_, fun _ => rfl, fun ts2 stf h => LexN.tok hl ?_ h⟩
    · obtain ⟨k, t, s, tr⟩ := a
      simp only at e1
      rw [e1]
      rfl
    · rfl
    · unfold Ready at hb ⊢
      cases b with
      | true => simp at hb ⊢; rw [hd]; omega
      | false => simp at hb ⊢; rw [hd]; refine ⟨by omega, rfl⟩
    · show st.depth + depthChange a.kind = st.depth
      rw [hd]; omega
    · rfl
    · show a.kind ≠ K.eof
      intro he
      have := (Props.Lexer.scanTok_spec x _ _ (hs r) {})
      have hk : ({ kind := a.kind, text := x :: r0, str := a.str, triple := a.triple, rest := c :: r : Scanned }).kind ≠ K.eof := this.2.2.2.1
      exact hk he
  | group b o cl s c as ho hcl hs ih =>
    intro st nl r hr hb hn
    have hr1 : st.rest = o :: (s ++ cl :: c :: r) := by rw [hr]; simp
    have hready : st.depth = 0 → st.clean = true → st.indent = st.currentIndent := by
      intro h1 h2
      unfold Ready at hb
      cases b with
      | true => simp at hb; omega
      | false => simp at hb; rw [hb.2] at h2; cases h2
    have hl := lexN_tok (scan_open ho (s ++ cl :: c :: r)) hr1 hready nl
    have hdo : depthChange o.toNat = 1 := by rcases ho with rfl | rfl | rfl <;> rfl
    have hdc : depthChange cl.toNat = -1 := by rcases hcl with rfl | rfl | rfl <;> rfl
    have hdep : 0 ≤ st.depth := by
      unfold Ready at hb
      cases b with
      | true => simp at hb; omega
      | false => simp at hb; omega
    obtain ⟨ts, st', nl', h1, h2, h3, h4, h5, _, h6⟩ := ih { ({ st with clean := false } : State).adv [o] (s ++ cl :: c :: r) with depth := st.depth + depthChange o.toNat } 0 (c :: r) rfl
      (show 0 < st.depth + depthChange o.toNat by rw [hdo]; omega) (fun _ => rfl)
    have hl2 := lexN_tok (st := st') (scan_close hcl (c :: r)) h2 (by intro h; rw [h4] at h; simp only [hdo] at h; omega) nl'
    have h4' : st'.depth = st.depth + 1 := by rw [h4]; show st.depth + depthChange o.toNat = _; rw [hdo]
    refine ⟨{ kind := o.toNat, pos := st.pos, tok := [o] } :: (ts ++ [{ kind := cl.toNat, pos := st'.pos, tok := [cl] }]),
      { ({ st' with clean := false } : State).adv [cl] (c :: r) with depth := st'.depth + depthChange cl.toNat }, 0, ?_, ?_, ?_, ?_, ?_, fun _ => rfl, fun ts2 stf h => ?_⟩
    rotate_left 5
    · rw [List.cons_append, List.append_assoc]
      refine LexN.tok hl ?_ (h6 _ _ (LexN.tok hl2 ?_ h))
      · show o.toNat ≠ K.eof
        rcases ho with rfl | rfl | rfl <;> decide
      · show cl.toNat ≠ K.eof
        rcases hcl with rfl | rfl | rfl <;> decide
    · rw [List.map_cons, List.map_append, h1]
      rfl
    · rfl
    · unfold Ready at hb ⊢
      cases b with
      | true => simp at hb ⊢; rw [hdc, h4']; omega
      | false => simp at hb ⊢; rw [hdc, h4']; refine ⟨by omega, rfl⟩
    · show st'.depth + depthChange cl.toNat = _
      rw [hdc, h4']; omega
    · exact h5
  | app b s1 s2 c as1 as2 _ _ ih1 ih2 =>
    intro st nl r hr hb hn
    obtain ⟨r', hr'⟩ := head_app s2 c r
    obtain ⟨ts1, st1, n1, h1, h2, h3, h4, h5, hn1, h6⟩ := ih1 st nl r' (by rw [hr, List.append_assoc, hr']) hb hn
    obtain ⟨ts2, st2, n2, g1, g2, g3, g4, g5, hn2, g6⟩ := ih2 st1 n1 r (by rw [h2, ← hr']) h3 hn1
    refine ⟨ts1 ++ ts2, st2, n2, by rw [List.map_append, h1, g1], g2, g3, g4.trans h4, g5.trans h5, hn2, fun ts stf h => ?_⟩
    rw [List.append_assoc]
    exact h6 _ _ (g6 _ _ h)

/-- a text in the middle of a line -/
theorem lx_spec {s : Bytes} {c : UInt8} {as : List ATok} (h : Lx false s c as) (st : State) (r : Bytes) (hr : st.rest = s ++ c :: r) (hb : Ready false st) :
    ∃ ts st', ts.map abs = as ∧ st'.rest = c :: r ∧ Ready false st' ∧ st'.depth = st.depth ∧ st'.indents = st.indents ∧
      (∀ ts2 stf, LexTo st' ts2 stf → LexTo st (ts ++ ts2) stf) := by
  obtain ⟨ts, st', nl', h1, h2, h3, h4, h5, h6, h7⟩ := lx_specN h st 0 r hr hb (fun _ => rfl)
  refine ⟨ts, st', h1, h2, h3, h4, h5, fun ts2 stf h => ?_⟩
  intro nl hnl
  have hd : st.depth = 0 := by unfold Ready at hb; simp at hb; exact hb.1
  rw [hnl hd]
  exact h7 _ _ (by rw [h6 rfl]; exact h 0 (fun _ => rfl))

end Verif.RoundI
