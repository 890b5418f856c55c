import Verif.Proofs.LexLine
import Verif.Props.CommentSpec
/-
How lines and blocks with comments are read by the lexer (`LSw`).
-/
namespace Verif.Round
open Verif Verif.Syntax Verif.Lexer Verif.Print

/-- the text of a comment -/
def ComText (c : Bytes) : Prop := ∃ r, c = 35 :: r ∧ 10 ∉ r

/-- the token of a comment on its own line -/
def CM (c : Bytes) : ATok := W K.comment c

/-- blank lines and comment lines -/
inductive Fil : Bytes → List ATok → Prop
  | nil : Fil [] []
  | blank (g ag) : Fil g ag → Fil (10 :: g) (NL :: ag)
  | com (k c g ag) : ComText c → Fil g ag → Fil (spaces k ++ (c ++ 10 :: g)) (CM c :: NL :: ag)

theorem Fil.app {g1 a1 g2 a2} (h1 : Fil g1 a1) (h2 : Fil g2 a2) : Fil (g1 ++ g2) (a1 ++ a2) := by
  induction h1 with
  | nil => exact h2
  | blank g ag _ ih => exact .blank _ _ ih
  | com k c g ag hc _ ih =>
    have := Fil.com k c _ _ hc ih
    simpa using this

/-- the end of a line: nothing or a comment -/
inductive Eol : Bytes → Prop
  | nl : Eol [10]
  | com (k c) : ComText c → Eol (spaces (k + 1) ++ (c ++ [10]))

/-- the end of a line and the lines after it that are blank or comments -/
def End (w : Bytes) (aw : List ATok) : Prop := ∃ e g ag, Eol e ∧ Fil g ag ∧ w = e ++ g ∧ aw = NL :: ag

theorem End.app {w aw g ag} (h : End w aw) (hg : Fil g ag) : End (w ++ g) (aw ++ ag) := by
  obtain ⟨e, g1, a1, he, h1, rfl, rfl⟩ := h
  exact ⟨e, _, _, he, h1.app hg, by simp, by simp⟩

theorem End.nl : End [10] [NL] := ⟨[10], [], [], .nl, .nil, rfl, rfl⟩

/-- `LSw m s w as`: like `LS`, with the text `w` after `s` -/
def LSw (m : Nat) (s w : Bytes) (as : List ATok) : Prop :=
  ∀ (st : State) (r : Bytes) (m' : Nat), st.rest = s ++ (w ++ (spaces m' ++ r)) → (r = [] ∧ m' = 0 ∨ StartOK r) → st.depth = 0 →
    st.currentIndent = m → (st.clean = true → st.indent = m) → m' ≤ m →
    ∃ ts st', ts.map abs = as ∧ st'.rest = r ∧ st'.depth = 0 ∧ st'.clean = true ∧ st'.indent = m' ∧ st'.indents = st.indents ∧
      ∀ ts2 stf, LexTo st' ts2 stf → LexTo st (ts ++ ts2) stf

theorem com_take {c : Bytes} (h : ComText c) (r : Bytes) : (c ++ 10 :: r).takeWhile (· != 10) = c ∧ (c ++ 10 :: r).dropWhile (· != 10) = 10 :: r := by
  obtain ⟨t, rfl, ht⟩ := h
  have key : ∀ (t : Bytes), 10 ∉ t → (t ++ 10 :: r).takeWhile (· != 10) = t ∧ (t ++ 10 :: r).dropWhile (· != 10) = 10 :: r := by
    intro t
    induction t with
    | nil => intro _; exact ⟨rfl, rfl⟩
    | cons a t ih =>
      intro h
      have h1 : (a != 10) = true := by simp only [bne_iff_ne, ne_eq]; intro e; exact h (by simp [e])
      obtain ⟨i1, i2⟩ := ih (fun hm => h (List.mem_cons_of_mem _ hm))
      rw [List.cons_append, List.takeWhile_cons_of_pos (by simpa using h1), List.dropWhile_cons_of_pos (by simpa using h1), i1, i2]
      exact ⟨rfl, rfl⟩
  exact key (35 :: t) (by intro hm; rcases List.mem_cons.1 hm with h | h; exact absurd h (by decide); exact ht h)

/-- a comment on its own line -/
theorem lexN_comment {st : State} {c r : Bytes} (hc : ComText c) (hr : st.rest = c ++ 10 :: r) (hd : st.depth = 0) (hcl : st.clean = true) (nl : Nat) :
    lexN nl st = some ({ kind := K.comment, pos := st.pos, tok := c }, { st with indent := 0, clean := true }.adv c (10 :: r)) := by
  obtain ⟨h1, h2⟩ := com_take hc r
  have hs : ∀ f, skip (f + 1) st nl = .comment st.pos c ({ st with indent := 0, clean := true }.adv c (10 :: r)) := by
    intro f
    unfold skip
    rw [hr, h1, h2]
    obtain ⟨t, rfl, ht⟩ := hc
    dsimp only [List.cons_append]
    rw [if_neg (by decide), if_neg (by decide), if_neg (by decide), if_pos (by decide), hd, hcl]
    rfl
  unfold lexN
  rw [hs]

/-- a comment at the end of a line -/
theorem lexN_suffix {st : State} {c r : Bytes} (hc : ComText c) (hr : st.rest = c ++ 10 :: r) (hd : st.depth = 0) (hcl : st.clean = false) :
    ∃ st', st'.rest = 10 :: r ∧ st'.depth = 0 ∧ st'.indents = st.indents ∧ lexN 0 st = lexN 0 st' := by
  obtain ⟨h1, h2⟩ := com_take hc r
  let st2 := ({ st with indent := 0, clean := true } : State).adv c (10 :: r)
  let st3 : State := if isSuffixComment (st.done.takeWhile (· != 10)) then { st2 with lineComments := st.lineComments, suffixComments := st.suffixComments ++ [⟨st.pos, c⟩] }
      else { st2 with lineComments := st.lineComments ++ [⟨st.pos, c⟩] }
  have e1 : st3.rest = 10 :: r := by show State.rest (ite _ _ _) = _; split <;> rfl
  have e2 : st3.depth = 0 := by rw [← hd]; show State.depth (ite _ _ _) = _; split <;> rfl
  have e3 : st3.indents = st.indents := by show State.indents (ite _ _ _) = _; split <;> rfl
  refine ⟨st3, e1, e2, e3, ?_⟩
  have hs : ∀ f, skip (f + 1) st 0 = skip f st3 0 := by
    intro f
    conv => lhs; unfold skip
    rw [hr, h1, h2]
    have hc0 : c ++ 10 :: r = 35 :: (c.tail ++ 10 :: r) := by obtain ⟨t, rfl, _⟩ := hc; rfl
    rw [hc0]
    dsimp only
    rw [if_neg (by decide), if_neg (by decide), if_neg (by decide), if_pos (by decide), hcl]
    rw [if_neg (c := (decide (st.depth = 0) && false) = true) (by simp), if_neg (c := (0 : Nat) > 1) (by decide)]
    rfl
  unfold lexN
  have hlen : ∃ n, st.rest.length = n + 1 := by obtain ⟨t, rfl, _⟩ := hc; rw [hr]; exact ⟨_, rfl⟩
  obtain ⟨n, hn⟩ := hlen
  have k : ∀ f, skip (f + 1) st3 0 = .newline st3.pos ({ st3 with indent := 0, clean := true }.adv [10] r) := by
    intro f
    conv => lhs; unfold skip
    rw [e1]
    dsimp only
    rw [if_pos rfl, if_pos e2]
  rw [hs, hn, k, k]

/-- blanks in the middle of a line -/
theorem lex_mid : ∀ (n : Nat) (st : State) (r : Bytes), st.rest = spaces n ++ r → st.clean = false →
    ∃ st', st'.rest = r ∧ st'.depth = st.depth ∧ st'.clean = false ∧ st'.indents = st.indents ∧ ∀ ts stf, LexTo st' ts stf → LexTo st ts stf := by
  intro n
  induction n with
  | zero => intro st r hr hc; exact ⟨st, hr, rfl, hc, rfl, fun _ _ h => h⟩
  | succ n ih =>
    intro st r hr hc
    have hr' : st.rest = 32 :: (spaces n ++ r) := hr
    have hif : (if st.clean then { st with indent := st.indent + 1 } else st) = st := by rw [if_neg (by rw [hc]; simp)]
    have hs : ∀ nl, lexN nl st = lexN nl (st.adv [32] (spaces n ++ r)) := fun nl => by rw [lexN_space hr' nl, hif]
    obtain ⟨st', h1, h2, h3, h4, h5⟩ := ih (st.adv [32] (spaces n ++ r)) r rfl hc
    exact ⟨st', h1, h2, h3, h4, fun ts stf h => LexTo.skip0 (by rfl) (fun nl => hs nl) (h5 ts stf h)⟩

/-- the end of a line -/
theorem lex_eol {e : Bytes} (he : Eol e) {st : State} {r : Bytes} (hr : st.rest = e ++ r) (hd : st.depth = 0) (hc : st.clean = false) :
    ∃ t st', abs t = NL ∧ st'.rest = r ∧ st'.depth = 0 ∧ st'.clean = true ∧ st'.indent = 0 ∧ st'.indents = st.indents ∧
      ∀ ts2 stf, LexTo st' ts2 stf → LexTo st (t :: ts2) stf := by
  have nl : ∀ (st : State), st.rest = 10 :: r → st.depth = 0 → ∃ t st', abs t = NL ∧ st'.rest = r ∧ st'.depth = 0 ∧ st'.clean = true ∧ st'.indent = 0 ∧ st'.indents = st.indents ∧
      ∀ ts2 stf, LexTo st' ts2 stf → LexTo st (t :: ts2) stf := by
    intro st hr hd
    exact ⟨{ kind := K.newline, pos := st.pos, tok := [10] }, ({ st with indent := 0, clean := true } : State).adv [10] r, rfl, rfl, hd, rfl, rfl, rfl,
      fun ts2 stf h => LexTo.tok (fun nl => lexN_newline0 hr hd nl) (by show K.newline ≠ K.eof; decide) h⟩
  cases he with
  | nl => exact nl st hr hd
  | com k c hct =>
    obtain ⟨st1, a1, a2, a3, a4, a5⟩ := lex_mid (k + 1) st (c ++ 10 :: r) (by rw [hr]; simp) hc
    obtain ⟨st2, b1, b2, b3, b4⟩ := lexN_suffix hct a1 (a2.trans hd) a3
    obtain ⟨t, st', c1, c2, c3, c4, c5, c6, c7⟩ := nl st2 b1 b2
    refine ⟨t, st', c1, c2, c3, c4, c5, c6.trans (b3.trans a4), fun ts2 stf h => a5 _ _ (LexTo.skip (fun n h0 => ?_) (c7 _ _ h))⟩
    have hn0 := h0 (a2.trans hd)
    subst hn0
    exact ⟨0, b4, fun _ => rfl⟩

/-- blank lines and comment lines, and the blanks after them -/
theorem lex_fil {g : Bytes} {ag : List ATok} (hg : Fil g ag) : ∀ (st : State) (m : Nat) (r : Bytes), st.rest = g ++ (spaces m ++ r) → st.depth = 0 → st.clean = true → st.indent = 0 →
    ∃ ts st', ts.map abs = ag ∧ st'.rest = r ∧ st'.depth = 0 ∧ st'.clean = true ∧ st'.indent = m ∧ st'.indents = st.indents ∧
      ∀ ts2 stf, LexTo st' ts2 stf → LexTo st (ts ++ ts2) stf := by
  induction hg with
  | nil =>
    intro st m r hr hd hc hi
    obtain ⟨st', h1, h2, h3, h4, h5, _, _, h8⟩ := lex_spaces m st r hr hc
    exact ⟨[], st', rfl, h1, h2.trans hd, h3, by rw [h4, hi]; omega, h5, h8⟩
  | blank g ag hg ih =>
    intro st m r hr hd hc hi
    have hr' : st.rest = 10 :: (g ++ (spaces m ++ r)) := hr
    obtain ⟨ts, st', h0, h1, h2, h3, h4, h5, h8⟩ := ih ({ st with indent := 0, clean := true }.adv [10] (g ++ (spaces m ++ r))) m r rfl hd rfl rfl
    refine ⟨{ kind := K.newline, pos := st.pos, tok := [10] } :: ts, st', ?_, h1, h2, h3, h4, h5, fun ts2 stf h => LexTo.tok (fun nl => lexN_newline0 hr' hd nl) (by show K.newline ≠ K.eof; decide) (h8 ts2 stf h)⟩
    rw [List.map_cons, h0]
    rfl
  | com k c g ag hct hg ih =>
    intro st m r hr hd hc hi
    obtain ⟨st1, a1, a2, a3, a4, a5, _, _, a8⟩ := lex_spaces k st (c ++ 10 :: (g ++ (spaces m ++ r))) (by rw [hr]; simp) hc
    have hd1 := a2.trans hd
    let st2 := ({ st1 with indent := 0, clean := true } : State).adv c (10 :: (g ++ (spaces m ++ r)))
    obtain ⟨ts, st', h0, h1, h2, h3, h4, h5, h8⟩ := ih ({ st2 with indent := 0, clean := true }.adv [10] (g ++ (spaces m ++ r))) m r rfl hd1 rfl rfl
    refine ⟨{ kind := K.comment, pos := st1.pos, tok := c } :: { kind := K.newline, pos := st2.pos, tok := [10] } :: ts, st', ?_, h1, h2, h3, h4, ?_, fun ts2 stf h => ?_⟩
    · rw [List.map_cons, List.map_cons, h0]; rfl
    · rw [h5]; exact a5
    · exact a8 _ _ (LexTo.tok (fun nl => lexN_comment hct a1 hd1 a3 nl) (by show K.comment ≠ K.eof; decide)
        (LexTo.tok (st := st2) (fun nl => lexN_newline0 (st := st2) rfl hd1 nl) (by show K.newline ≠ K.eof; decide) (h8 ts2 stf h)))

theorem lex_end {w : Bytes} {aw : List ATok} (hw : End w aw) {st : State} {m : Nat} {r : Bytes} (hr : st.rest = w ++ (spaces m ++ r)) (hd : st.depth = 0) (hc : st.clean = false) :
    ∃ ts st', ts.map abs = aw ∧ st'.rest = r ∧ st'.depth = 0 ∧ st'.clean = true ∧ st'.indent = m ∧ st'.indents = st.indents ∧
      ∀ ts2 stf, LexTo st' ts2 stf → LexTo st (ts ++ ts2) stf := by
  obtain ⟨e, g, ag, he, hg, rfl, rfl⟩ := hw
  obtain ⟨t, st1, a0, a1, a2, a3, a4, a5, a6⟩ := lex_eol he (st := st) (r := g ++ (spaces m ++ r)) (by rw [hr]; simp) hd hc
  obtain ⟨ts, st2, b0, b1, b2, b3, b4, b5, b6⟩ := lex_fil hg st1 m r a1 a2 a3 a4
  exact ⟨t :: ts, st2, by rw [List.map_cons, a0, b0], b1, b2, b3, b4, b5.trans a5, fun ts2 stf h => a6 _ _ (b6 _ _ h)⟩

theorem Eol.head {e : Bytes} (h : Eol e) : ∃ c r, e = c :: r ∧ Follow c := by
  cases h with
  | nl => exact ⟨10, [], rfl, follow10⟩
  | com k c _ => exact ⟨32, spaces k ++ (c ++ [10]), rfl, follow32⟩

theorem End.head {w aw} (h : End w aw) : ∃ c r, w = c :: r ∧ Follow c := by
  obtain ⟨e, g, ag, he, hg, rfl, rfl⟩ := h
  obtain ⟨c, r, rfl, hc⟩ := he.head
  exact ⟨c, _, rfl, hc⟩

/-- a text on one line (with its line breaks inside brackets or escaped), and the end of the line -/
theorem lex_line {s w : Bytes} {as aw : List ATok} (hs : StartOK s) (ht : T false s as) (hw : End w aw) {st : State} {m : Nat} {r : Bytes}
    (hr : st.rest = s ++ (w ++ (spaces m ++ r))) (hd : st.depth = 0) (hc : st.clean = true → st.indent = st.currentIndent) :
    ∃ ts st', ts.map abs = as ++ aw ∧ st'.rest = r ∧ st'.depth = 0 ∧ st'.clean = true ∧ st'.indent = m ∧ st'.indents = st.indents ∧
      ∀ ts2 stf, LexTo st' ts2 stf → LexTo st (ts ++ ts2) stf := by
  obtain ⟨x, s', rfl, hx⟩ := hs
  obtain ⟨c, w', rfl, hfc⟩ := hw.head
  obtain ⟨ts, st1, h1, h2, h3, h4, h5, _, _, h8⟩ := lx_spec (ht c hfc) { st with clean := false } (w' ++ (spaces m ++ r)) (by rw [← List.cons_append]; exact hr) ⟨hd, rfl⟩
  obtain ⟨ts2, st2, b0, b1, b2, b3, b4, b5, b6⟩ := lex_end hw (st := st1) (m := m) (r := r) (by rw [h2]; rfl) (h4.trans hd) h3.2
  refine ⟨ts ++ ts2, st2, by rw [List.map_append, h1, b0], b1, b2, b3, b4, b5.trans h5, fun ts3 stf h => ?_⟩
  rw [List.append_assoc]
  exact LexTo.skip0 (by rfl) (fun nl => lexN_first (r := s' ++ (c :: w' ++ (spaces m ++ r))) hr hx hc nl) (h8 _ _ (b6 _ _ h))

theorem lsw_simple {m : Nat} {s w : Bytes} {as aw : List ATok} (hs : StartOK s) (ht : T false s as) (hw : End w aw) : LSw m s w (as ++ aw) := by
  intro st r m' hr hr0 hd hi hc hm
  exact lex_line hs ht hw hr hd (fun h => (hc h).trans hi.symm)

theorem lsw_seq {m : Nat} {s1 s2 w1 w2 : Bytes} {as1 as2 : List ATok} (h1 : LSw m s1 w1 as1) (hs : StartOK s2) (h2 : LSw m s2 w2 as2) :
    LSw m (s1 ++ (w1 ++ (spaces m ++ s2))) w2 (as1 ++ as2) := by
  intro st r m' hr hr0 hd hi hc hm
  obtain ⟨ts1, st1, a0, a1, a2, a3, a4, a5, a8⟩ := h1 st (s2 ++ (w2 ++ (spaces m' ++ r))) m (by rw [hr]; simp) (.inr hs.app) hd hi hc (Nat.le_refl _)
  have hi1 : st1.currentIndent = m := by unfold State.currentIndent; rw [a5]; exact hi
  obtain ⟨ts2, st2, b0, b1, b2, b3, b4, b5, b8⟩ := h2 st1 r m' a1 hr0 a2 hi1 (fun _ => a4) hm
  refine ⟨ts1 ++ ts2, st2, ?_, b1, b2, b3, b4, b5.trans a5, fun ts stf h => ?_⟩
  · rw [List.map_append, a0, b0]
  · rw [List.append_assoc]; exact a8 _ _ (b8 _ _ h)

/-- a header, then an indented block -/
theorem lsw_block {m : Nat} {h e body w : Bytes} {ah ae as : List ATok} (hh : StartOK h) (ht : T false h ah) (he : End e ae) (hb : StartOK body) (hl : LSw (m + 4) body w as) :
    LSw m (h ++ (e ++ (spaces (m + 4) ++ body))) w (ah ++ (ae ++ IND :: (as ++ [UNIND]))) := by
  intro st r m' hr hr0 hd hi hc hm
  obtain ⟨ts1, st2, b0, b1, b2, b3, b4, b5, b8⟩ := lex_line hh ht he (st := st) (m := m + 4) (r := body ++ (w ++ (spaces m' ++ r))) (by rw [hr]; simp) hd (fun h => (hc h).trans hi.symm)
  have hi2 : st2.currentIndent = m := by unfold State.currentIndent; rw [b5]; exact hi
  have hind : ∀ nl, lexN nl st2 = some ({ kind := K.indent, pos := st2.pos }, { st2 with indents := st2.indent :: st2.indents, clean := false }) := by
    intro nl
    obtain ⟨x, b', rfl, hx⟩ := hb
    unfold lexN
    rw [skip_start (r := b' ++ (w ++ (spaces m' ++ r))) b1 hx]
    dsimp only
    rw [if_pos (by rw [b2, b3]; rfl), if_pos (by rw [b4, hi2]; omega)]
  obtain ⟨ts3, st3, c0, c1, c2, c3, c4, c5, c8⟩ := hl { st2 with indents := st2.indent :: st2.indents, clean := false } r m' b1 hr0 b2
    (by show st2.indent = m + 4; exact b4) (by intro h; cases h) (by omega)
  have hi3 : st3.currentIndent = m + 4 := by unfold State.currentIndent; rw [c5]; exact b4
  have hdrop : st3.indents.drop 1 = st2.indents := by rw [c5]; rfl
  have hun : ∀ nl, lexN nl st3 = some ({ kind := K.unindent, pos := st3.pos }, { st3 with indents := st3.indents.drop 1 }) := by
    intro nl
    have hsk : skip (st3.rest.length + 1) st3 nl = .found st3 := by
      rcases hr0 with ⟨rfl, _⟩ | ⟨x, r', rfl, hx⟩
      · exact skip_end c1 _ _
      · exact skip_start c1 hx _ _
    unfold lexN
    rw [hsk]
    dsimp only
    have e1 : ({ st3 with indents := st3.indents.drop 1 } : State).currentIndent = m := by
      unfold State.currentIndent; dsimp only; rw [hdrop]; exact hi2
    rw [if_pos (by rw [c2, c3]; rfl), if_neg (by rw [c4, hi3]; omega), if_pos (by rw [c4, hi3]; omega), if_neg (by rw [e1, c4]; omega)]
  refine ⟨ts1 ++ ({ kind := K.indent, pos := st2.pos } :: (ts3 ++ [{ kind := K.unindent, pos := st3.pos }])), { st3 with indents := st3.indents.drop 1 }, ?_, c1, c2, c3, c4, ?_,
    fun ts stf h => ?_⟩
  · rw [List.map_append, List.map_cons, List.map_append, b0, c0]
    simp only [List.append_assoc]
    rfl
  · show st3.indents.drop 1 = _
    rw [hdrop, b5]
  · rw [List.append_assoc, List.cons_append, List.append_assoc]
    exact b8 _ _ (LexTo.tok hind (by show K.indent ≠ K.eof; decide) (c8 _ _ (LexTo.tok hun (by show K.unindent ≠ K.eof; decide) h)))

end Verif.Round
