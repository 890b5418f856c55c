import Verif.Proofs.PrText
/-
How lines and blocks are read by the lexer (`LS`).
-/
namespace Verif.Round
open Verif Verif.Syntax Verif.Lexer Verif.Print

/-- `LS m s n as`: at indentation `m` outside brackets, the text `s` followed by `n` line ends is read as the tokens `as`. What comes next is indented by `m'`
and is not blank, or is the end of the input. -/
def LS (m : Nat) (s : Bytes) (n : Nat) (as : List ATok) : Prop :=
  ∀ (st : State) (r : Bytes) (m' : Nat), st.rest = s ++ (List.replicate n 10 ++ (spaces m' ++ r)) → (r = [] ∧ m' = 0 ∨ StartOK r) → st.depth = 0 →
    st.currentIndent = m → (st.clean = true → st.indent = m) → m' ≤ m →
    ∃ ts st', ts.map abs = as ∧ st'.rest = r ∧ st'.depth = 0 ∧ st'.clean = true ∧ st'.indent = m' ∧ st'.indents = st.indents ∧
      st'.lineComments = st.lineComments ∧ st'.suffixComments = st.suffixComments ∧ ∀ ts2 stf, LexTo st' ts2 stf → LexTo st (ts ++ ts2) stf

/-- the token of a line end -/
def NL : ATok := W K.newline [10]
def IND : ATok := W K.indent []
def UNIND : ATok := W K.unindent []

theorem skip_start {st : State} {x : UInt8} {r : Bytes} (hr : st.rest = x :: r) (hx : Start x) (f nl : Nat) : skip (f + 1) st nl = .found st := by
  have h : x ≠ 10 ∧ x ≠ 32 ∧ x ≠ 9 ∧ x ≠ 13 ∧ x ≠ 35 ∧ x ≠ 92 := by
    unfold Start at hx
    simp only [List.mem_cons, List.not_mem_nil, or_false, not_or] at hx
    exact ⟨hx.2.2.2.1, hx.2.2.2.2.1, hx.2.2.2.2.2.1, hx.2.2.2.2.2.2.1, hx.2.2.2.2.2.2.2.1, hx.2.2.2.2.2.2.2.2.1⟩
  obtain ⟨h1, h2, h3, h4, h5, h6⟩ := h
  unfold skip
  rw [hr]
  simp only [h1, h2, h3, h4, h5, h6, if_false, decide_false, Bool.or_self, Bool.false_and, Bool.false_eq_true]

theorem skip_end {st : State} (hr : st.rest = []) (f nl : Nat) : skip (f + 1) st nl = .found st := by
  unfold skip; rw [hr]

/-- at the start of a line with the current indentation -/
theorem lexN_first {st : State} {x : UInt8} {r : Bytes} (hr : st.rest = x :: r) (hx : Start x) (hc : st.clean = true → st.indent = st.currentIndent) (nl : Nat) :
    lexN nl st = lexN nl { st with clean := false } := by
  unfold lexN
  rw [skip_start hr hx, skip_start (st := { st with clean := false }) hr hx]
  dsimp only
  rw [Bool.and_false, if_neg (c := false = true) (by simp)]
  by_cases hb : (decide (st.depth = 0) && st.clean) = true
  · rw [if_pos hb]
    simp only [Bool.and_eq_true, decide_eq_true_eq] at hb
    have := hc hb.2
    rw [if_neg (by omega), if_neg (by omega)]
    rfl
  · rw [if_neg hb]
    rfl

/-- the blanks at the start of a line -/
theorem lex_spaces : ∀ (n : Nat) (st : State) (r : Bytes), st.rest = spaces n ++ r → st.clean = true →
    ∃ st', st'.rest = r ∧ st'.depth = st.depth ∧ st'.clean = true ∧ st'.indent = st.indent + n ∧ st'.indents = st.indents ∧
      st'.lineComments = st.lineComments ∧ st'.suffixComments = st.suffixComments ∧ ∀ ts stf, LexTo st' ts stf → LexTo st ts stf := by
  intro n
  induction n with
  | zero => intro st r hr hc; exact ⟨st, hr, rfl, hc, rfl, rfl, rfl, rfl, fun _ _ h => h⟩
  | succ n ih =>
    intro st r hr hc
    have hr' : st.rest = 32 :: (spaces n ++ r) := hr
    have hif : (if st.clean then { st with indent := st.indent + 1 } else st) = { st with indent := st.indent + 1 } := by rw [if_pos hc]
    have hs : ∀ nl, lexN nl st = lexN nl ({ st with indent := st.indent + 1 }.adv [32] (spaces n ++ r)) := fun nl => by rw [lexN_space hr' nl, hif]
    obtain ⟨st', h1, h2, h3, h4, h5, h6, h7, h8⟩ := ih ({ st with indent := st.indent + 1 }.adv [32] (spaces n ++ r)) r rfl hc
    refine ⟨st', h1, h2, h3, ?_, h5, h6, h7, fun ts stf h => LexTo.skip0 (by rfl) (fun nl => hs nl) (h8 ts stf h)⟩
    rw [h4]
    show st.indent + 1 + n = _
    omega

/-- line ends and the blanks after them -/
theorem lex_lines : ∀ (n : Nat) (st : State) (m : Nat) (r : Bytes), st.rest = List.replicate (n + 1) 10 ++ (spaces m ++ r) → st.depth = 0 →
    ∃ ts st', ts.map abs = List.replicate (n + 1) NL ∧ st'.rest = r ∧ st'.depth = 0 ∧ st'.clean = true ∧ st'.indent = m ∧ st'.indents = st.indents ∧
      st'.lineComments = st.lineComments ∧ st'.suffixComments = st.suffixComments ∧ ∀ ts2 stf, LexTo st' ts2 stf → LexTo st (ts ++ ts2) stf := by
  intro n
  induction n with
  | zero =>
    intro st m r hr hd
    have hr' : st.rest = 10 :: (spaces m ++ r) := hr
    obtain ⟨st', h1, h2, h3, h4, h5, h6, h7, h8⟩ := lex_spaces m ({ st with indent := 0, clean := true }.adv [10] (spaces m ++ r)) r rfl rfl
    refine ⟨[_], st', ?_, h1, h2.trans hd, h3, ?_, h5, h6, h7, fun ts2 stf h => LexTo.tok (fun nl => lexN_newline0 hr' hd nl) (by show K.newline ≠ K.eof; decide) (h8 ts2 stf h)⟩
    · rfl
    · rw [h4]; show 0 + m = m; omega
  | succ n ih =>
    intro st m r hr hd
    have hr' : st.rest = 10 :: (List.replicate (n + 1) 10 ++ (spaces m ++ r)) := hr
    obtain ⟨ts, st', h0, h1, h2, h3, h4, h5, h6, h7, h8⟩ := ih ({ st with indent := 0, clean := true }.adv [10] (List.replicate (n + 1) 10 ++ (spaces m ++ r))) m r rfl hd
    refine ⟨{ kind := K.newline, pos := st.pos, tok := [10] } :: ts, st', ?_, h1, h2, h3, h4, h5, h6, h7, fun ts2 stf h => LexTo.tok (fun nl => lexN_newline0 hr' hd nl) (by show K.newline ≠ K.eof; decide) (h8 ts2 stf h)⟩
    rw [List.map_cons, h0]
    rfl

/-- a text on one line (with its line breaks inside brackets or escaped) -/
theorem lex_text {s : Bytes} {as : List ATok} (hs : StartOK s) (ht : T false s as) {st : State} {r : Bytes} (hr : st.rest = s ++ 10 :: r) (hd : st.depth = 0)
    (hc : st.clean = true → st.indent = st.currentIndent) :
    ∃ ts st', ts.map abs = as ∧ st'.rest = 10 :: r ∧ st'.depth = 0 ∧ st'.indents = st.indents ∧ st'.lineComments = st.lineComments ∧
      st'.suffixComments = st.suffixComments ∧ ∀ ts2 stf, LexTo st' ts2 stf → LexTo st (ts ++ ts2) stf := by
  obtain ⟨x, s', rfl, hx⟩ := hs
  obtain ⟨ts, st', h1, h2, h3, h4, h5, h6, h7, h8⟩ := lx_spec (ht 10 follow10) { st with clean := false } r hr ⟨hd, rfl⟩
  exact ⟨ts, st', h1, h2, h4.trans hd, h5, h6, h7, fun ts2 stf h =>
    LexTo.skip0 (by rfl) (fun nl => lexN_first (r := s' ++ 10 :: r) hr hx hc nl) (h8 ts2 stf h)⟩

theorem ls_simple {m n : Nat} {s : Bytes} {as : List ATok} (hs : StartOK s) (ht : T false s as) : LS m s (n + 1) (as ++ List.replicate (n + 1) NL) := by
  intro st r m' hr hr0 hd hi hc hm
  obtain ⟨ts, st1, h1, h2, h3, h4, h5, h6, h7⟩ := lex_text hs ht (st := st) (r := List.replicate n 10 ++ (spaces m' ++ r)) (by rw [hr, List.replicate_succ]; rfl) hd (fun h => (hc h).trans hi.symm)
  obtain ⟨ts', st2, g0, g1, g2, g3, g4, g5, g6, g7, g8⟩ := lex_lines n st1 m' r h2 h3
  refine ⟨ts ++ ts', st2, ?_, g1, g2, g3, g4, g5.trans h4, g6.trans h5, g7.trans h6, fun ts2 stf h => ?_⟩
  · rw [List.map_append, h1, g0]
  · rw [List.append_assoc]; exact h7 _ _ (g8 _ _ h)

theorem ls_seq {m j n : Nat} {s1 s2 : Bytes} {as1 as2 : List ATok} (h1 : LS m s1 j as1) (hs : StartOK s2) (h2 : LS m s2 n as2) :
    LS m (s1 ++ (List.replicate j 10 ++ (spaces m ++ s2))) n (as1 ++ as2) := by
  intro st r m' hr hr0 hd hi hc hm
  obtain ⟨ts1, st1, a0, a1, a2, a3, a4, a5, a6, a7, a8⟩ := h1 st (s2 ++ (List.replicate n 10 ++ (spaces m' ++ r))) m (by rw [hr]; simp) (.inr hs.app) hd hi hc (Nat.le_refl _)
  have hi1 : st1.currentIndent = m := by unfold State.currentIndent; rw [a5]; exact hi
  obtain ⟨ts2, st2, b0, b1, b2, b3, b4, b5, b6, b7, b8⟩ := h2 st1 r m' a1 hr0 a2 hi1 (fun _ => a4) hm
  refine ⟨ts1 ++ ts2, st2, ?_, b1, b2, b3, b4, b5.trans a5, b6.trans a6, b7.trans a7, fun ts stf h => ?_⟩
  · rw [List.map_append, a0, b0]
  · rw [List.append_assoc]; exact a8 _ _ (b8 _ _ h)

/-- a header, then an indented block -/
theorem ls_block {m n : Nat} {h body : Bytes} {ah as : List ATok} (hh : StartOK h) (ht : T false h ah) (hb : StartOK body) (hl : LS (m + 4) body n as) :
    LS m (h ++ (10 :: (spaces (m + 4) ++ body))) n (ah ++ (NL :: IND :: (as ++ [UNIND]))) := by
  intro st r m' hr hr0 hd hi hc hm
  obtain ⟨ts1, st1, a0, a1, a2, a3, a4, a5, a6⟩ := lex_text hh ht (st := st) (r := spaces (m + 4) ++ (body ++ (List.replicate n 10 ++ (spaces m' ++ r)))) (by rw [hr]; simp) hd (fun h => (hc h).trans hi.symm)
  obtain ⟨ts2, st2, b0, b1, b2, b3, b4, b5, b6, b7, b8⟩ := lex_lines 0 st1 (m + 4) (body ++ (List.replicate n 10 ++ (spaces m' ++ r))) a1 a2
  have hi2 : st2.currentIndent = m := by unfold State.currentIndent; rw [b5, a3]; exact hi
  have hind : ∀ nl, lexN nl st2 = some ({ kind := K.indent, pos := st2.pos }, { st2 with indents := st2.indent :: st2.indents, clean := false }) := by
    intro nl
    obtain ⟨x, b', rfl, hx⟩ := hb
    unfold lexN
    rw [skip_start (r := b' ++ (List.replicate n 10 ++ (spaces m' ++ r))) b1 hx]
    dsimp only
    rw [if_pos (by rw [b2, b3]; rfl), if_pos (by rw [b4, hi2]; omega)]
  obtain ⟨ts3, st3, c0, c1, c2, c3, c4, c5, c6, c7, c8⟩ := hl { st2 with indents := st2.indent :: st2.indents, clean := false } r m' b1 hr0 b2
    (by show st2.indent = m + 4; exact b4) (by intro h; cases h) (by omega)
  have hi3 : st3.currentIndent = m + 4 := by unfold State.currentIndent; rw [c5]; exact b4
  have hdrop : st3.indents.drop 1 = st2.indents := by rw [c5]; rfl
  have hun : ∀ nl, lexN nl st3 = some ({ kind := K.unindent, pos := st3.pos }, { st3 with indents := st3.indents.drop 1 }) := by
    intro nl
    have hsk : skip (st3.rest.length + 1) st3 nl = .found st3 := by
      rcases hr0 with ⟨rfl, _⟩ | ⟨x, r', rfl, hx⟩
      · exact skip_end c1 _ _
      · exact skip_start c1 hx _ _
    unfold lexN
    rw [hsk]
    dsimp only
    have e1 : ({ st3 with indents := st3.indents.drop 1 } : State).currentIndent = m := by
      unfold State.currentIndent; dsimp only; rw [hdrop]; exact hi2
    rw [if_pos (by rw [c2, c3]; rfl), if_neg (by rw [c4, hi3]; omega), if_pos (by rw [c4, hi3]; omega), if_neg (by rw [e1, c4]; omega)]
  refine ⟨ts1 ++ (ts2 ++ ({ kind := K.indent, pos := st2.pos } :: (ts3 ++ [{ kind := K.unindent, pos := st3.pos }]))), { st3 with indents := st3.indents.drop 1 }, ?_, c1, c2, c3, c4, ?_, ?_, ?_,
    fun ts stf h => ?_⟩
  · rw [List.map_append, List.map_append, List.map_cons, List.map_append, a0, b0, c0]
    rfl
  · show st3.indents.drop 1 = _
    rw [hdrop, b5, a3]
  · exact c6.trans (b6.trans a4)
  · exact c7.trans (b7.trans a5)
  · rw [List.append_assoc, List.append_assoc, List.cons_append, List.append_assoc]
    exact a6 _ _ (b8 _ _ (LexTo.tok hind (by show K.indent ≠ K.eof; decide) (c8 _ _ (LexTo.tok hun (by show K.unindent ≠ K.eof; decide) h))))

end Verif.Round
