import Verif.Props.RoundSpec
/-
How pieces of printed text are read by the lexer (`Lx`).
-/
namespace Verif.Round
open Verif Verif.Syntax Verif.Lexer

/-- a token without its position -/
structure ATok where
  kind : Kind
  tok : Bytes
  str : Bytes := []
  triple : Bool := false
deriving DecidableEq, Repr

def abs (t : Tok) : ATok := ⟨t.kind, t.tok, t.str, t.triple⟩

/-- the bytes the printer writes after a word, number or string -/
def Follow (c : UInt8) : Prop := c ∈ ([32, 10, 41, 93, 125, 44, 58, 46, 40, 91] : List UInt8)

/-- the text `t`, followed by the byte `c`, is read as the token `a` -/
def TextTok (t : Bytes) (c : UInt8) (a : ATok) : Prop :=
  a.tok = t ∧ ∃ x r0, t = x :: r0 ∧ ∀ r, scanTok x (r0 ++ c :: r) = some ⟨a.kind, t, a.str, a.triple, c :: r⟩

/-- a word, operator or punctuation mark as a token -/
def W (k : Kind) (t : Bytes) : ATok := ⟨k, t, [], false⟩

/-- `Lx b s c as`: the text `s`, followed by `c`, is read as the tokens `as`; `b`: inside brackets. -/
inductive Lx : Bool → Bytes → UInt8 → List ATok → Prop
  | nil (b c) : Lx b [] c []
  | space (b c) : Lx b [32] c []
  | newline (c) : Lx true [10] c []
  | cont (b c) : Lx b [92, 10] c []
  | tok (b t c a) : TextTok t c a → depthChange a.kind = 0 → Lx b t c [a]
  | group (b o cl s c as) : (o = 40 ∨ o = 91 ∨ o = 123) → (cl = 41 ∨ cl = 93 ∨ cl = 125) → Lx true s cl as →
      Lx b (o :: (s ++ [cl])) c (W o.toNat [o] :: (as ++ [W cl.toNat [cl]]))
  | app (b s1 s2 c as1 as2) : Lx b s1 (s2.headD c) as1 → Lx b s2 c as2 → Lx b (s1 ++ s2) c (as1 ++ as2)

/-! ## Lexing from a state -/

/-- `lex` after `nl` newlines have been skipped -/
def lexN (nl : Nat) (st : State) : Option (Tok × State) :=
  match skip (st.rest.length + 1) st nl with
  | .newline pos st' => some ({ kind := K.newline, pos := pos, tok := [10] }, st')
  | .comment pos text st' => some ({ kind := K.comment, pos := pos, tok := text }, st')
  | .found st' =>
    if st'.depth = 0 && st'.clean then
      if st'.indent > st'.currentIndent then
        some ({ kind := K.indent, pos := st'.pos }, { st' with indents := st'.indent :: st'.indents, clean := false })
      else if st'.indent < st'.currentIndent then
        let st2 := { st' with indents := st'.indents.drop 1 }
        if st2.indent > st2.currentIndent then none
        else some ({ kind := K.unindent, pos := st2.pos }, st2)
      else lexTok st'
    else lexTok st'

theorem lexN_zero (st : State) : lexN 0 st = lex st := rfl

def lexAllN (nl : Nat) : Nat → State → Result
  | 0, _ => .fuel
  | f + 1, st =>
    match lexN nl st with
    | none => .error
    | some (t, st') =>
      if t.kind = K.eof then .ok [t] st'
      else match lexAll f st' with
        | .ok ts st2 => .ok (t :: ts) st2
        | r => r

theorem lexAllN_succ (nl f : Nat) (st : State) : lexAllN nl (f + 1) st = match lexN nl st with
    | none => .error
    | some (t, st') =>
      if t.kind = K.eof then .ok [t] st'
      else match lexAll f st' with
        | .ok ts st2 => .ok (t :: ts) st2
        | r => r := rfl

theorem lexAllN_zero (f : Nat) (st : State) : lexAllN 0 f st = lexAll f st := by cases f <;> rfl

/-- from `st` the lexer delivers the tokens `ts` and ends in `stf` (outside brackets no line ends have been skipped) -/
def LexTo (st : State) (ts : List Tok) (stf : State) : Prop := ∀ nl, (st.depth = 0 → nl = 0) → ∃ f, lexAllN nl f st = .ok ts stf

theorem LexTo.tok {st st' stf : State} {t : Tok} {ts : List Tok} (h : ∀ nl, lexN nl st = some (t, st')) (hk : t.kind ≠ K.eof) (h2 : LexTo st' ts stf) :
    LexTo st (t :: ts) stf := by
  intro nl _
  obtain ⟨f, hf⟩ := h2 0 (fun _ => rfl)
  rw [lexAllN_zero] at hf
  refine ⟨f + 1, ?_⟩
  rw [lexAllN_succ, h nl]
  dsimp only
  rw [if_neg hk, hf]

theorem LexTo.skip {st st' stf : State} {ts : List Tok} (h : ∀ nl, (st.depth = 0 → nl = 0) → ∃ nl', lexN nl st = lexN nl' st' ∧ (st'.depth = 0 → nl' = 0))
    (h2 : LexTo st' ts stf) : LexTo st ts stf := by
  intro nl hnl
  obtain ⟨nl', h, h0⟩ := h nl hnl
  obtain ⟨f, hf⟩ := h2 nl' h0
  refine ⟨f, ?_⟩
  cases f with
  | zero => cases hf
  | succ f =>
    rw [lexAllN_succ] at hf ⊢
    rw [h]
    exact hf

/-- without counting line ends -/
theorem LexTo.skip0 {st st' stf : State} {ts : List Tok} (hd : st'.depth = st.depth) (h : ∀ nl, lexN nl st = lexN nl st') (h2 : LexTo st' ts stf) : LexTo st ts stf :=
  LexTo.skip (fun nl h0 => ⟨nl, h nl, fun e => h0 (hd ▸ e)⟩) h2

theorem LexTo.eof {st st' : State} {t : Tok} (h : ∀ nl, lexN nl st = some (t, st')) (hk : t.kind = K.eof) : LexTo st [t] st' := by
  intro nl _
  refine ⟨1, ?_⟩
  rw [lexAllN_succ, h nl]
  dsimp only
  rw [if_pos hk]

theorem adv_rest (st : State) (t r : Bytes) : (st.adv t r).rest = r := rfl

/-- skip a space -/
theorem lexN_space {st : State} {r : Bytes} (h : st.rest = 32 :: r) (nl : Nat) :
    lexN nl st = lexN nl ((if st.clean then { st with indent := st.indent + 1 } else st).adv [32] r) := by
  unfold lexN
  have : skip (st.rest.length + 1) st nl = skip (r.length + 1) ((if st.clean then { st with indent := st.indent + 1 } else st).adv [32] r) nl := by
    rw [h]
    show skip (r.length + 1 + 1) st nl = _
    conv => lhs; unfold skip
    rw [h]
    rfl
  rw [this]
  rfl

/-- skip a newline inside brackets -/
theorem lexN_newline {st : State} {r : Bytes} (h : st.rest = 10 :: r) (hd : st.depth ≠ 0) (nl : Nat) :
    lexN nl st = lexN (nl + 1) ({ st with indent := 0, clean := true }.adv [10] r) := by
  unfold lexN
  have : skip (st.rest.length + 1) st nl = skip (r.length + 1) ({ st with indent := 0, clean := true }.adv [10] r) (nl + 1) := by
    rw [h]
    show skip (r.length + 1 + 1) st nl = _
    conv => lhs; unfold skip
    rw [h]
    exact if_neg hd
  rw [this]
  rfl

/-- a newline outside brackets -/
theorem lexN_newline0 {st : State} {r : Bytes} (h : st.rest = 10 :: r) (hd : st.depth = 0) (nl : Nat) :
    lexN nl st = some ({ kind := K.newline, pos := st.pos, tok := [10] }, { st with indent := 0, clean := true }.adv [10] r) := by
  unfold lexN
  have : skip (st.rest.length + 1) st nl = .newline st.pos ({ st with indent := 0, clean := true }.adv [10] r) := by
    rw [h]
    show skip (r.length + 1 + 1) st nl = _
    conv => lhs; unfold skip
    rw [h]
    exact if_pos hd
  rw [this]

theorem skip_mono : ∀ (f g : Nat) (st : State) (nl : Nat), st.rest.length < f → st.rest.length < g → skip f st nl = skip g st nl := by
  intro f
  induction f with
  | zero => intro g st nl h; omega
  | succ f ih =>
    intro g st nl h1 h2
    cases g with
    | zero => omega
    | succ g =>
      unfold skip
      cases hr : st.rest with
      | nil => rfl
      | cons c r =>
        rw [hr] at h1 h2
        simp only [List.length_cons] at h1 h2
        have adv : ∀ (s : State) (t r' : Bytes) (n : Nat), r'.length ≤ r.length → skip f (s.adv t r') n = skip g (s.adv t r') n := fun s t r' n hl =>
          ih g _ n (by show r'.length < f; omega) (by show r'.length < g; omega)
        dsimp only
        split
        · split
          · rfl
          · exact adv _ _ _ _ (Nat.le_refl _)
        · split
          · exact adv _ _ _ _ (Nat.le_refl _)
          · split
            · exact adv _ _ _ _ (Nat.le_refl _)
            · split
              · rename_i hc
                split
                · rfl
                · have hl : (List.dropWhile (fun x => x != 10) (c :: r)).length ≤ r.length := by
                    rw [List.dropWhile_cons]
                    rw [hc]
                    simp only [show (c!"#" != (10 : UInt8)) = true from rfl, if_true]
                    exact (List.dropWhile_suffix _).length_le
                  split
                  · exact ih g _ _ (by show (List.dropWhile (fun x => x != 10) (c :: r)).length < f; omega)
                      (by show (List.dropWhile (fun x => x != 10) (c :: r)).length < g; omega)
                  · exact ih g _ _ (by show (List.dropWhile (fun x => x != 10) (c :: r)).length < f; omega)
                      (by show (List.dropWhile (fun x => x != 10) (c :: r)).length < g; omega)
              · split
                · exact adv _ _ _ _ (by simp)
                · rfl

/-- skip an escaped line end -/
theorem lexN_cont {st : State} {r : Bytes} (h : st.rest = 92 :: 10 :: r) (nl : Nat) : lexN nl st = lexN nl (st.adv [92, 10] r) := by
  unfold lexN
  have : skip (st.rest.length + 1) st nl = skip (r.length + 1) (st.adv [92, 10] r) nl := by
    rw [h]
    show skip (r.length + 2 + 1) st nl = _
    conv => lhs; unfold skip
    rw [h]
    show skip (r.length + 2) (st.adv [92, 10] r) nl = _
    exact skip_mono _ _ _ _ (by show r.length < _; omega) (by show r.length < _; omega)
  rw [this]
  rfl

/-- no token starts with a blank, a comment or a backslash -/
theorem scanTok_start {x : UInt8} {r : Bytes} {s : Scanned} (h : scanTok x r = some s) : x ≠ 10 ∧ x ≠ 32 ∧ x ≠ 9 ∧ x ≠ 13 ∧ x ≠ 35 ∧ x ≠ 92 := by
  have key : ∀ y : UInt8, (y = 10 ∨ y = 32 ∨ y = 9 ∨ y = 13 ∨ y = 35 ∨ y = 92) → scanTok y r = none := by
    rintro y (rfl | rfl | rfl | rfl | rfl | rfl) <;> rfl
  refine ⟨?_, ?_, ?_, ?_, ?_, ?_⟩ <;> (rintro rfl; rw [key _ (by decide)] at h; cases h)

theorem skip_tok {st : State} {x : UInt8} {r : Bytes} {s : Scanned} (h : scanTok x r = some s) (hr : st.rest = x :: r) (f nl : Nat) :
    skip (f + 1) st nl = .found st := by
  obtain ⟨h1, h2, h3, h4, h5, h6⟩ := scanTok_start h
  unfold skip
  rw [hr]
  simp only [h1, h2, h3, h4, h5, h6, if_false, decide_false, Bool.or_self, Bool.false_and, Bool.false_eq_true]

/-- a token in the middle of a line or inside brackets -/
theorem lexN_tok {st : State} {x : UInt8} {r : Bytes} {s : Scanned} (h : scanTok x r = some s) (hr : st.rest = x :: r)
    (hc : st.depth = 0 → st.clean = true → st.indent = st.currentIndent) (nl : Nat) :
    lexN nl st = some ({ kind := s.kind, pos := st.pos, tok := s.text, str := s.str, triple := s.triple },
        { ({ st with clean := false } : State).adv s.text s.rest with depth := st.depth + depthChange s.kind }) := by
  have htok : lexTok st = some ({ kind := s.kind, pos := st.pos, tok := s.text, str := s.str, triple := s.triple },
        { ({ st with clean := false } : State).adv s.text s.rest with depth := st.depth + depthChange s.kind }) := by
    unfold lexTok
    dsimp only
    rw [hr]
    dsimp only
    rw [h]
  unfold lexN
  rw [skip_tok h hr]
  dsimp only
  split
  · rename_i hb
    simp only [Bool.and_eq_true, decide_eq_true_eq] at hb
    have := hc hb.1 hb.2
    rw [if_neg (by omega), if_neg (by omega)]
    exact htok
  · exact htok

theorem scan_open {o : UInt8} (h : o = 40 ∨ o = 91 ∨ o = 123) (r : Bytes) : scanTok o r = some { kind := o.toNat, text := [o], rest := r } := by
  rcases h with rfl | rfl | rfl <;> rfl

theorem scan_close {o : UInt8} (h : o = 41 ∨ o = 93 ∨ o = 125) (r : Bytes) : scanTok o r = some { kind := o.toNat, text := [o], rest := r } := by
  rcases h with rfl | rfl | rfl <;> rfl

theorem head_app (s2 : Bytes) (c : UInt8) (r : Bytes) : ∃ r', s2 ++ c :: r = s2.headD c :: r' := by
  cases s2 with
  | nil => exact ⟨r, rfl⟩
  | cons a s2 => exact ⟨s2 ++ c :: r, rfl⟩

/-- the state is ready for the text: inside brackets, or in the middle of a line -/
def Ready (b : Bool) (st : State) : Prop := if b then 0 < st.depth else st.depth = 0 ∧ st.clean = false

theorem lx_spec {b : Bool} {s : Bytes} {c : UInt8} {as : List ATok} (h : Lx b s c as) : ∀ (st : State) (r : Bytes), st.rest = s ++ c :: r → Ready b st →
    ∃ ts st', ts.map abs = as ∧ st'.rest = c :: r ∧ Ready b st' ∧ st'.depth = st.depth ∧ st'.indents = st.indents ∧ st'.lineComments = st.lineComments ∧
      st'.suffixComments = st.suffixComments ∧ (∀ ts2 stf, LexTo st' ts2 stf → LexTo st (ts ++ ts2) stf) := by
  induction h with
  | nil b c => intro st r hr hb; exact ⟨[], st, rfl, hr, hb, rfl, rfl, rfl, rfl, fun _ _ h => h⟩
  | space b c =>
    intro st r hr hb
    have key : ∀ st1 : State, st1.depth = st.depth → st1.clean = st.clean → Ready b st1 := by
      intro st1 h1 h2; unfold Ready at hb ⊢; rw [h1, h2]; exact hb
    refine ⟨[], _, rfl, ?_, ?_, ?_, ?_, ?_, ?_, fun ts2 stf h => LexTo.skip0 (by split <;> rfl) (fun nl => lexN_space hr nl) h⟩
    · rfl
    · apply key <;> split <;> rfl
    all_goals (split <;> rfl)
  | newline c =>
    intro st r hr hb
    have hd : st.depth ≠ 0 := by have : 0 < st.depth := hb; omega
    exact ⟨[], { st with indent := 0, clean := true }.adv [10] (c :: r), rfl, rfl, hb, rfl, rfl, rfl, rfl, fun ts2 stf h =>
      LexTo.skip (fun nl _ => ⟨nl + 1, lexN_newline hr hd nl, fun e => absurd e hd⟩) h⟩
  | cont b c =>
    intro st r hr hb
    exact ⟨[], st.adv [92, 10] (c :: r), rfl, rfl, hb, rfl, rfl, rfl, rfl, fun ts2 stf h => LexTo.skip0 (st' := st.adv [92, 10] (c :: r)) rfl (fun nl => lexN_cont hr nl) h⟩
  | tok b t c a ht hd =>
    intro st r hr hb
    obtain ⟨e1, x, r0, rfl, hs⟩ := ht
    have hr' : st.rest = x :: (r0 ++ c :: r) := hr
    have hready : st.depth = 0 → st.clean = true → st.indent = st.currentIndent := by
      intro h1 h2
      unfold Ready at hb
      cases b with
      | true => simp at hb; omega
      | false => simp at hb; rw [hb.2] at h2; cases h2
    have hl := fun nl => lexN_tok (hs r) hr' hready nl
    refine ⟨[_], _, ?_, ?_, ?_, ?_, ?_, ?_, ?_, fun ts2 stf h => LexTo.tok hl ?_ h⟩
    · obtain ⟨k, t, s, tr⟩ := a
      simp only at e1
      rw [e1]
      rfl
    · rfl
    · unfold Ready at hb ⊢
      cases b with
      | true => simp at hb ⊢; rw [hd]; omega
      | false => simp at hb ⊢; rw [hd]; refine ⟨by omega, rfl⟩
    · show st.depth + depthChange a.kind = st.depth
      rw [hd]; omega
    · rfl
    · rfl
    · rfl
    · show a.kind ≠ K.eof
      intro he
      have := (Props.Lexer.scanTok_spec x _ _ (hs r) {})
      have hk : ({ kind := a.kind, text := x :: r0, str := a.str, triple := a.triple, rest := c :: r : Scanned }).kind ≠ K.eof := this.2.2.2.1
      exact hk he
  | group b o cl s c as ho hcl hs ih =>
    intro st r hr hb
    have hr1 : st.rest = o :: (s ++ cl :: c :: r) := by rw [hr]; simp
    have hready : st.depth = 0 → st.clean = true → st.indent = st.currentIndent := by
      intro h1 h2
      unfold Ready at hb
      cases b with
      | true => simp at hb; omega
      | false => simp at hb; rw [hb.2] at h2; cases h2
    have hl := fun nl => lexN_tok (scan_open ho (s ++ cl :: c :: r)) hr1 hready nl
    have hdo : depthChange o.toNat = 1 := by rcases ho with rfl | rfl | rfl <;> rfl
    have hdc : depthChange cl.toNat = -1 := by rcases hcl with rfl | rfl | rfl <;> rfl
    have hdep : 0 ≤ st.depth := by
      unfold Ready at hb
      cases b with
      | true => simp at hb; omega
      | false => simp at hb; omega
    obtain ⟨ts, st', h1, h2, h3, h4, h5, h5a, h5b, h6⟩ := ih { ({ st with clean := false } : State).adv [o] (s ++ cl :: c :: r) with depth := st.depth + depthChange o.toNat } (c :: r) rfl (show 0 < st.depth + depthChange o.toNat by rw [hdo]; omega)
    have hl2 := fun nl => lexN_tok (st := st') (scan_close hcl (c :: r)) h2 (by intro h; rw [h4] at h; simp only [hdo] at h; omega) nl
    have h4' : st'.depth = st.depth + 1 := by rw [h4]; show st.depth + depthChange o.toNat = _; rw [hdo]
    refine ⟨{ kind := o.toNat, pos := st.pos, tok := [o] } :: (ts ++ [{ kind := cl.toNat, pos := st'.pos, tok := [cl] }]),
      { ({ st' with clean := false } : State).adv [cl] (c :: r) with depth := st'.depth + depthChange cl.toNat }, ?_, ?_, ?_, ?_, ?_, ?_, ?_, fun ts2 stf h => ?_⟩
    rotate_left 7
    · rw [List.cons_append, List.append_assoc]
      refine LexTo.tok hl ?_ (h6 _ _ (LexTo.tok hl2 ?_ h))
      · show o.toNat ≠ K.eof
        rcases ho with rfl | rfl | rfl <;> decide
      · show cl.toNat ≠ K.eof
        rcases hcl with rfl | rfl | rfl <;> decide
    · rw [List.map_cons, List.map_append, h1]
      rfl
    · rfl
    · unfold Ready at hb ⊢
      cases b with
      | true => simp at hb ⊢; rw [hdc, h4']; omega
      | false => simp at hb ⊢; rw [hdc, h4']; refine ⟨by omega, rfl⟩
    · show st'.depth + depthChange cl.toNat = _
      rw [hdc, h4']; omega
    · exact h5
    · exact h5a
    · exact h5b
  | app b s1 s2 c as1 as2 _ _ ih1 ih2 =>
    intro st r hr hb
    obtain ⟨r', hr'⟩ := head_app s2 c r
    obtain ⟨ts1, st1, h1, h2, h3, h4, h5, h5a, h5b, h6⟩ := ih1 st r' (by rw [hr, List.append_assoc, hr']) hb
    obtain ⟨ts2, st2, g1, g2, g3, g4, g5, g5a, g5b, g6⟩ := ih2 st1 r (by rw [h2, ← hr']) h3
    refine ⟨ts1 ++ ts2, st2, by rw [List.map_append, h1, g1], g2, g3, g4.trans h4, g5.trans h5, g5a.trans h5a, g5b.trans h5b, fun ts stf h => ?_⟩
    rw [List.append_assoc]
    exact h6 _ _ (g6 _ _ h)

end Verif.Round
