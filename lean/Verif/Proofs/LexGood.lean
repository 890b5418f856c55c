import Verif.Proofs.LxTok
/-
What the lexer guarantees about the texts of its tokens, and about the token after a block start.
-/
namespace Verif.Round
open Verif Verif.Syntax Verif.Lexer Verif.Props.Lexer

/-- the text of a token is what its kind promises -/
structure TokGood (t : Tok) : Prop where
  ident : t.kind = K.ident → Name t.tok
  int : t.kind = K.int → IntText t.tok
  string : t.kind = K.string → Props.Quote.LexedToken t.tok
  fixed : t.kind ≠ K.ident → t.kind ≠ K.int → t.kind ≠ K.string → t.kind ≠ K.comment → (t.kind, t.tok) ∈ fixedTokens

theorem scanIdent_shape : ∀ (r : Bytes) (l : UInt8), Digits l (scanIdent true l r).1 := by
  intro r
  induction r with
  | nil => intro l; exact .nil _
  | cons c r ih =>
    intro l
    unfold scanIdent
    by_cases hc : (isIdent c || ((c == c!"+" || c == c!"-") && true && (l == c!"e" || l == c!"E"))) = true
    · rw [if_pos hc]
      simp only [Bool.or_eq_true, Bool.and_eq_true, beq_iff_eq] at hc
      rcases hc with hc | hc
      · exact .word _ _ _ ((isIdent_iff c).1 hc) (ih c)
      · exact .sign _ _ _ hc.1.1 hc.2 (ih c)
    · rw [if_neg hc]; exact .nil _

theorem fixed_kind : ∀ q ∈ fixedTokens, q.1 ≠ K.ident ∧ q.1 ≠ K.int ∧ q.1 ≠ K.string ∧ q.1 ≠ K.comment := by decide

theorem good_fixed {t : Tok} (h : (t.kind, t.tok) ∈ fixedTokens) : TokGood t := by
  obtain ⟨h1, h2, h3, h4⟩ := fixed_kind _ h
  exact ⟨fun e => absurd e h1, fun e => absurd e h2, fun e => absurd e h3, fun _ _ _ _ => h⟩

theorem good_as {t : Tok} (k : Kind) (x : Bytes) (h : (k, x) ∈ fixedTokens) (hk : t.kind = k) (hx : t.tok = x) : TokGood t :=
  good_fixed (by rw [hk, hx]; exact h)

theorem good_string {t : Tok} (h : t.kind = K.string) (hl : Props.Quote.LexedToken t.tok) : TokGood t := by
  refine ⟨fun e => ?_, fun e => ?_, fun _ => hl, fun _ _ e => absurd h e⟩ <;> · rw [h] at e; exact absurd e (by decide)

theorem scan_good (c : UInt8) (r : Bytes) (s : Scanned) (h : scanTok c r = some s) (pos : Pos) :
    TokGood { kind := s.kind, pos := pos, tok := s.text, str := s.str, triple := s.triple } := by
  have hsp := (scanTok_spec c r s h pos).2.2.1
  unfold scanTok at h
  by_cases h1 : (isOpen c || isClose c || isSingle c) = true
  · rw [if_pos h1] at h
    cases h
    cases hsp with
    | fixed hm => exact good_fixed hm
    | ident c' s hk =>
      have : ∀ c, (isOpen c || isClose c || isSingle c) = true → (c.toNat : Kind) < 256 := fun c _ => c.toNat_lt
      have := this c h1
      dsimp only at hk
      rw [hk] at this; exact absurd this (by decide)
    | int c' s hk => 
      have := c.toNat_lt
      dsimp only at hk
      rw [hk] at this; exact absurd this (by decide)
    | string _ _ _ hk =>
      have := c.toNat_lt
      dsimp only at hk
      rw [hk] at this; exact absurd this (by decide)
    | comment _ hk =>
      have := c.toNat_lt
      dsimp only at hk
      rw [hk] at this; exact absurd this (by decide)
  rw [if_neg h1] at h
  by_cases h2 : isOpByte c = true
  · rw [if_pos h2] at h
    have hsc := scanOp_spec c r h2
    generalize scanOp c r = q at h hsc
    obtain ⟨k, t, r'⟩ := q
    cases h
    exact good_fixed hsc.2.1
  rw [if_neg h2] at h
  by_cases h3 : (isQuoteByte c || (c == c!"r" && (r.head? == some c!"\"" || r.head? == some c!"'"))) = true
  · rw [if_pos h3] at h
    cases hq : Scan.scanString (c :: r) with
    | none => rw [hq] at h; cases h
    | some p =>
      obtain ⟨t, r'⟩ := p
      rw [hq] at h
      dsimp only at h
      by_cases he : (Quote.unquote t).err = true
      · rw [if_pos he] at h; cases h
      · rw [if_neg he] at h
        cases h
        exact good_string rfl ⟨_, _, hq⟩
  rw [if_neg h3] at h
  by_cases h4 : isIdent c = true
  · rw [if_pos h4] at h
    cases h
    rcases identKind_spec (c :: (scanIdent (isDigit c) c r).1) with hf | ⟨hk, c', s', he, hd⟩ | ⟨hk, hd⟩
    · exact good_fixed hf
    · injection he with e1 e2
      subst e1
      refine ⟨fun e => ?_, fun _ => ?_, fun e => ?_, fun _ e _ _ => absurd hk e⟩
      · have e : identKind (c :: (scanIdent (isDigit c) c r).1) = K.ident := e
        rw [hk] at e; exact absurd e (by decide)
      · refine ⟨c, _, rfl, (isDigit_iff c).1 hd, ?_⟩
        show Digits c (scanIdent (isDigit c) c r).1
        rw [hd]; exact scanIdent_shape r c
      · have e : identKind (c :: (scanIdent (isDigit c) c r).1) = K.string := e
        rw [hk] at e; exact absurd e (by decide)
    · have hd := hd c _ rfl
      refine ⟨fun _ => ?_, fun e => ?_, fun e => ?_, fun e _ _ _ => absurd hk e⟩
      · refine ⟨c, _, rfl, (isIdent_iff c).1 h4, fun e => ?_, fun b hb => ?_, fun hm => ?_⟩
        · rw [(isDigit_iff c).2 e] at hd; cases hd
        · rw [hd] at hb
          rcases scanIdent_bytes false r c b hb with h | ⟨h, _⟩
          · exact h
          · cases h
        · have key : ∀ t ∈ keywords, identKind t ≠ K.ident := by decide
          exact key _ hm hk
      · have e : identKind (c :: (scanIdent (isDigit c) c r).1) = K.int := e
        rw [hk] at e; exact absurd e (by decide)
      · have e : identKind (c :: (scanIdent (isDigit c) c r).1) = K.string := e
        rw [hk] at e; exact absurd e (by decide)
  · rw [if_neg h4] at h; cases h

theorem lexTok_good {st : State} {t : Tok} {st' : State} (h : lexTok st = some (t, st')) : TokGood t := by
  unfold lexTok at h
  dsimp only at h
  cases hr : st.rest with
  | nil =>
    rw [hr] at h
    dsimp only at h
    split at h
    · cases h; exact good_as K.unindent [] (by decide) rfl rfl
    · cases h; exact good_as K.eof [] (by decide) rfl rfl
  | cons c r =>
    rw [hr] at h
    dsimp only at h
    cases hs : scanTok c r with
    | none => rw [hs] at h; cases h
    | some s => rw [hs] at h; cases h; exact scan_good c r s hs _

theorem good_comment {t : Tok} (h : t.kind = K.comment) : TokGood t := by
  refine ⟨fun e => ?_, fun e => ?_, fun e => ?_, fun _ _ _ e => absurd h e⟩ <;> · rw [h] at e; exact absurd e (by decide)

theorem lex_good {st : State} {t : Tok} {st' : State} (h : lex st = some (t, st')) : TokGood t := by
  unfold lex at h
  cases hq : skip (st.rest.length + 1) st 0 with
  | newline p st2 => rw [hq] at h; cases h; exact good_as K.newline [10] (by decide) rfl rfl
  | comment p tx st2 => rw [hq] at h; cases h; exact good_comment rfl
  | found st1 =>
    rw [hq] at h
    dsimp only at h
    split at h
    · split at h
      · cases h; exact good_as K.indent [] (by decide) rfl rfl
      · split at h
        · split at h
          · cases h
          · cases h; exact good_as K.unindent [] (by decide) rfl rfl
        · exact lexTok_good h
    · exact lexTok_good h

theorem lexAll_good : ∀ (f : Nat) (st : State) (ts : List Tok) (st' : State), lexAll f st = .ok ts st' → ∀ t ∈ ts, TokGood t := by
  intro f
  induction f with
  | zero => intro st ts st' h; cases h
  | succ f ih =>
    intro st ts st' h
    unfold lexAll at h
    cases hl : lex st with
    | none => rw [hl] at h; cases h
    | some p =>
      obtain ⟨t, st1⟩ := p
      rw [hl] at h
      dsimp only at h
      by_cases hk : t.kind = K.eof
      · rw [if_pos hk] at h
        cases h
        intro t' ht'
        rw [List.mem_singleton.1 ht']
        exact lex_good hl
      · rw [if_neg hk] at h
        cases h2 : lexAll f st1 with
        | error => rw [h2] at h; cases h
        | fuel => rw [h2] at h; cases h
        | ok ts2 st2 =>
          rw [h2] at h
          cases h
          intro t' ht'
          rcases List.mem_cons.1 ht' with rfl | ht'
          · exact lex_good hl
          · exact ih _ _ _ h2 t' ht'

theorem tokens_good {data : Bytes} {ts : List Tok} {st : State} (h : tokens data = .ok ts st) : ∀ t ∈ ts, TokGood t := lexAll_good _ _ _ _ h

/-! ## A block is not empty -/

/-- The input ends with a line end that no backslash precedes; when it has been read, the indentation is 0. -/
def Tail (st : State) : Prop :=
  (st.rest = [] → st.indent = 0) ∧ (st.rest ≠ [] → ∃ pre, st.rest = pre ++ [10] ∧ pre.getLast? ≠ some 92)

/-- reading a part of the input that does not end with the last line end -/
theorem Tail.part {st : State} {text rest : Bytes} (h : Tail st) (hr : st.rest = text ++ rest) (ht : text.getLast? ≠ some 10) (hne : text ≠ []) :
    rest ≠ [] ∧ ∃ pre, rest = pre ++ [10] ∧ pre.getLast? ≠ some 92 := by
  obtain ⟨pre, e, hp⟩ := h.2 (by rw [hr]; simp [hne])
  rw [hr] at e
  have hrest : rest ≠ [] := by
    rintro rfl
    rw [List.append_nil] at e
    rw [e] at ht
    exact ht (by simp)
  refine ⟨hrest, rest.dropLast, ?_, ?_⟩
  · obtain ⟨q, x, rfl⟩ : ∃ q x, rest = q ++ [x] := ⟨_, _, (List.dropLast_concat_getLast hrest).symm⟩
    rw [← List.append_assoc] at e
    have := List.append_inj_right' e rfl
    rw [this]; simp
  · obtain ⟨q, x, rfl⟩ : ∃ q x, rest = q ++ [x] := ⟨_, _, (List.dropLast_concat_getLast hrest).symm⟩
    rw [← List.append_assoc] at e
    have := List.append_inj_left' e rfl
    rw [List.dropLast_concat]
    rw [← this] at hp
    intro hq
    apply hp
    rw [List.getLast?_append, hq]; rfl

theorem Tail.line {st : State} {r : Bytes} (h : Tail st) (hr : st.rest = 10 :: r) {st' : State} (hi : st'.indent = 0) (hr' : st'.rest = r) : Tail st' := by
  refine ⟨fun _ => hi, fun hne => ?_⟩
  rw [hr'] at hne ⊢
  obtain ⟨pre, e, hp⟩ := h.2 (by rw [hr]; simp)
  rw [hr] at e
  cases pre with
  | nil => injection e with _ e; exact absurd e hne
  | cons x pre =>
    injection e with _ e
    refine ⟨pre, e, fun hq => hp ?_⟩
    rw [List.getLast?_cons, hq]; rfl

theorem Tail.of {st' : State} (h : st'.rest ≠ [] ∧ ∃ pre, st'.rest = pre ++ [10] ∧ pre.getLast? ≠ some 92) : Tail st' :=
  ⟨fun e => absurd e h.1, fun _ => h.2⟩

theorem skip_tail : ∀ (f : Nat) (st : State) (nl : Nat), Tail st →
    match skip f st nl with
    | .found st' => Tail st'
    | .newline _ st' => Tail st'
    | .comment _ _ st' => Tail st' := by
  intro f
  induction f with
  | zero => intro st nl h; exact h
  | succ f ih =>
    intro st nl h
    unfold skip
    cases hr : st.rest with
    | nil => exact h
    | cons c r =>
      dsimp only
      by_cases h10 : c = 10
      · rw [if_pos h10]
        subst h10
        by_cases hd : st.depth = 0
        · rw [if_pos hd]
          exact h.line hr rfl rfl
        · rw [if_neg hd]
          exact ih _ _ (h.line hr rfl rfl)
      rw [if_neg h10]
      have one : ∀ st' : State, st'.rest = r → Tail st' := fun st' e =>
        .of (by rw [e]; exact h.part (text := [c]) hr (by simp [h10]) (by simp))
      by_cases h32 : c = 32
      · rw [if_pos h32]
        exact ih _ _ (one _ rfl)
      rw [if_neg h32]
      by_cases h9 : (c = 9 || c = 13) = true
      · rw [if_pos (by simpa using h9)]
        exact ih _ _ (one _ rfl)
      rw [if_neg (by simpa using h9)]
      by_cases h35 : c = 35
      · rw [if_pos h35]
        have hsplit : st.rest = st.rest.takeWhile (· != 10) ++ st.rest.dropWhile (· != 10) := (List.takeWhile_append_dropWhile).symm
        have hcom : ∀ st' : State, st'.rest = st.rest.dropWhile (· != 10) → Tail st' := by
          intro st' e
          refine .of ?_
          rw [e]
          refine h.part hsplit (fun hq => ?_) ?_
          · have := List.all_eq_true.1 (takeWhile_all_ne st.rest) _ (List.mem_of_getLast? hq)
            exact absurd this (by decide)
          · rw [hr, h35]; simp
        rw [← hr]
        by_cases hcm : (st.depth = 0 && st.clean) = true
        · rw [if_pos (by simpa using hcm)]
          exact hcom _ rfl
        · rw [if_neg (by simpa using hcm)]
          refine ih _ _ (hcom _ ?_)
          by_cases hs : isSuffixComment (st.done.takeWhile (· != 10)) = true
          · rw [if_pos hs]; rfl
          · rw [if_neg hs]; rfl
      rw [if_neg h35]
      by_cases hb : (c = 92 && r.head? == some 10) = true
      · rw [if_pos (by simpa using hb)]
        simp at hb
        obtain ⟨rfl, hb2⟩ := hb
        cases r with
        | nil => cases hb2
        | cons d r2 =>
          simp at hb2
          subst hb2
          refine ih _ _ ?_
          obtain ⟨pre, e, hp⟩ := h.2 (by rw [hr]; simp)
          rw [hr] at e
          have hr2 : r2 ≠ [] := by
            rintro rfl
            obtain rfl : pre = [92] := by
              have : [92] ++ [10] = pre ++ [10] := e
              exact (List.append_inj_left' this rfl).symm
            exact hp rfl
          refine .of ⟨hr2, ?_⟩
          show ∃ pre, r2 = pre ++ [10] ∧ _
          match pre, e with
          | [], e => cases e
          | [x], e => simp at e; exact absurd e.2 hr2
          | x :: y :: pre, e =>
            simp at e
            refine ⟨pre, e.2.2, fun hq => hp ?_⟩
            rw [List.getLast?_cons, List.getLast?_cons, hq]; rfl
      · rw [if_neg (by simpa using hb)]; exact h

theorem good_last {t : Tok} (h : TokText t) (hk : t.kind ≠ K.newline) (hc : t.kind ≠ K.comment) : t.tok.getLast? ≠ some 10 := by
  cases h with
  | fixed hm =>
    have key : ∀ q ∈ fixedTokens, q.1 ≠ K.newline → q.2.getLast? ≠ some 10 := by decide
    exact key _ hm hk
  | ident c s h1 h2 h3 h4 h5 =>
    intro e
    have := List.mem_of_getLast? e
    rw [h2] at this
    have w10 : ¬ wordByte 10 := by unfold wordByte; decide
    rcases List.mem_cons.1 this with rfl | hm
    · exact w10 h4
    · exact w10 (h5 _ hm)
  | int c s h1 h2 h3 h4 =>
    intro e
    have := List.mem_of_getLast? e
    rw [h2] at this
    have w10 : ¬ wordByte 10 := by unfold wordByte; decide
    rcases List.mem_cons.1 this with rfl | hm
    · exact absurd h3 (by decide)
    · rcases h4 _ hm with h | h | h
      · exact w10 h
      · cases h
      · cases h
  | string raw delim body h1 h2 h3 h4 =>
    rw [h2, List.getLast?_append]
    have key : ∀ d ∈ [b!"\"", b!"'", b!"\"\"\"", b!"'''"], ∃ x, d.getLast? = some x ∧ x ≠ 10 := by decide
    obtain ⟨x, hx, hne⟩ := key _ h4
    rw [hx]
    intro e
    exact hne (Option.some.inj e)
  | comment _ h1 => exact absurd h1 hc

theorem lexTok_tail {st : State} {t : Tok} {st' : State} (h : lexTok st = some (t, st')) (hT : Tail st) : Tail st' := by
  unfold lexTok at h
  dsimp only at h
  cases hr : st.rest with
  | nil =>
    rw [hr] at h
    dsimp only at h
    split at h
    · cases h; exact ⟨fun _ => hT.1 hr, fun e => absurd rfl e⟩
    · cases h; exact ⟨fun _ => hT.1 hr, fun e => absurd rfl e⟩
  | cons c r =>
    rw [hr] at h
    dsimp only at h
    cases hs : scanTok c r with
    | none => rw [hs] at h; cases h
    | some s =>
      rw [hs] at h
      cases h
      obtain ⟨h1, h2, h3, h4, h5, h6, _⟩ := scanTok_spec c r s hs st.pos
      refine .of ?_
      exact hT.part (text := s.text) (hr.trans h1.symm) (good_last h3 h5 h6) h2

/-- one token: what comes after an indentation -/
theorem lex_tail {st : State} {t : Tok} {st' : State} (h : lex st = some (t, st')) (hT : Tail st) : Tail st' ∧ (t.kind = K.indent → st'.rest ≠ []) := by
  have hsk := skip_tail (st.rest.length + 1) st 0 hT
  unfold lex at h
  cases hq : skip (st.rest.length + 1) st 0 with
  | newline p st2 => rw [hq] at h hsk; cases h; exact ⟨hsk, fun e => nomatch e⟩
  | comment p tx st2 => rw [hq] at h hsk; cases h; exact ⟨hsk, fun e => nomatch e⟩
  | found st1 =>
    rw [hq] at h hsk
    dsimp only at h hsk
    have nolt : ∀ t st', lexTok st1 = some (t, st') → t.kind ≠ K.indent := by
      intro t st' h
      unfold lexTok at h
      dsimp only at h
      cases hr : st1.rest with
      | nil =>
        rw [hr] at h
        dsimp only at h
        split at h
        · cases h; (dsimp only; decide)
        · cases h; (dsimp only; decide)
      | cons c r =>
        rw [hr] at h
        dsimp only at h
        cases hsc : scanTok c r with
        | none => rw [hsc] at h; cases h
        | some s =>
          rw [hsc] at h
          cases h
          exact (scanTok_spec c r s hsc st1.pos).2.2.2.2.2.2.1
    split at h
    · split at h
      · rename_i hlt
        cases h
        refine ⟨hsk, fun _ he => ?_⟩
        have := hsk.1 he
        omega
      · split at h
        · split at h
          · cases h
          · cases h; exact ⟨hsk, fun e => nomatch e⟩
        · exact ⟨lexTok_tail h hsk, fun e => absurd e (nolt _ _ h)⟩
    · exact ⟨lexTok_tail h hsk, fun e => absurd e (nolt _ _ h)⟩

theorem lexAll_block (f : Nat) : ∀ (st : State) (ts : List Tok) (st' : State), Inv st → Stack st.indents → Tail st → lexAll f st = .ok ts st' →
    (∀ a t u b, ts = a ++ t :: u :: b → t.kind = K.indent → u.kind ≠ K.unindent) ∧
    (Stop st.rest → st.rest ≠ [] → st.clean = false → ∀ u b, ts = u :: b → u.kind ≠ K.unindent) := by
  induction f with
  | zero => intro st ts st' _ _ _ h; cases h
  | succ f ih =>
    intro st ts st' hi hs hT h
    unfold lexAll at h
    cases hl : lex st with
    | none => rw [hl] at h; cases h
    | some p =>
      rw [hl] at h
      obtain ⟨t, st1⟩ := p
      have sp := lex_spec st t st1 hi hs hl
      have sT := lex_tail hl hT
      have hstop : Stop st.rest → st.rest ≠ [] → st.clean = false → t.kind ≠ K.unindent := by
        intro h1 h2 h3
        have hl := hl
        unfold lex at hl
        rw [skip_stop _ _ _ h1] at hl
        dsimp only at hl
        rw [if_neg (by simp [h3])] at hl
        unfold lexTok at hl
        dsimp only at hl
        cases hr : st.rest with
        | nil => exact absurd hr h2
        | cons c r =>
          rw [hr] at hl
          dsimp only at hl
          cases hsc : scanTok c r with
          | none => rw [hsc] at hl; cases hl
          | some s =>
            rw [hsc] at hl
            cases hl
            exact (scanTok_spec c r s hsc st.pos).2.2.2.2.2.2.2
      dsimp only at h
      by_cases hk : t.kind = K.eof
      · rw [if_pos hk] at h
        cases h
        refine ⟨fun a t' u b hab _ => ?_, fun _ _ _ u b hub => ?_⟩
        · have := congrArg List.length hab; simp at this; omega
        · cases hub; rw [hk]; decide
      · rw [if_neg hk] at h
        cases h2 : lexAll f st1 with
        | error => rw [h2] at h; cases h
        | fuel => rw [h2] at h; cases h
        | ok ts2 st2 =>
          rw [h2] at h
          cases h
          have hr := ih st1 _ _ sp.inv sp.stack sT.1 h2
          refine ⟨fun a t' u b hab hk' => ?_, fun h1 h2 h3 u b hub => ?_⟩
          · cases a with
            | nil =>
              obtain ⟨rfl, e⟩ := List.cons.inj hab
              obtain ⟨g1, g2⟩ := lex_indent st t st1 hi hl hk'
              exact hr.2 g1 (sT.2 hk') g2 u b e
            | cons x a => exact hr.1 a t' u b (List.cons.inj hab).2 hk'
          · cases hub; exact hstop h1 h2 h3

/-- a block start is not followed by a block end, unless the file ends with a backslash -/
theorem tokens_block {data : Bytes} {ts : List Tok} {st : State} (h : tokens data = .ok ts st) (hd : data.getLast? ≠ some 92) (a : List Tok) (t u : Tok) (b : List Tok)
    (hts : ts = a ++ t :: u :: b) (hk : t.kind = K.indent) : u.kind ≠ K.newline ∧ u.kind ≠ K.comment ∧ u.kind ≠ K.unindent := by
  obtain ⟨h1, h2⟩ := C47_block_start data ts st h a t u b hts hk
  refine ⟨h1, h2, (lexAll_block _ _ _ _ (inv_new data) (stack_new data) ⟨?_, ?_⟩ h).1 a t u b hts hk⟩
  · intro e; simp [newInput] at e
  · intro _; exact ⟨data, rfl, hd⟩

end Verif.Round
