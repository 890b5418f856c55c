import Verif.Proofs.PrintC
import Verif.Proofs.SameComm
/-
A printed file is read back.
-/
namespace Verif.Round
open Verif Verif.Syntax Verif.Lexer Verif.Print Verif.Parser Verif.Grammar Verif.Props.Grammar

/-- what is printed for a file without comments -/
theorem format_spec {f : File} {out : Bytes} (hc : f.comments = {}) (hok : ∀ s ∈ f.stmts, OkStmt s) (htt : ∀ s ∈ f.stmts, tupleTight s = true)
    (h : format f = some out) : (f.stmts = [] ∧ out = []) ∨ ∃ t, out = t ++ [10] ∧ StmtT 0 f.stmts t := by
  unfold format at h
  dsimp only at h
  by_cases hb : (file f {}).bad = true
  · rw [if_pos hb] at h; cases h
  rw [if_neg hb] at h
  injection h with h
  have hb' : (file f {}).bad = false := by simpa using hb
  by_cases hl : f.stmts = []
  · refine .inl ⟨hl, ?_⟩
    rw [← h]
    unfold file
    rw [hc, hl]
    rfl
  refine .inr ?_
  obtain ⟨ha, hn⟩ := statements_spec (ft := f.type) (prS f.type (budget f.stmts)) (fun e o st => keep_expr f.type (budget f.stmts) e o st) hl hok htt (st := {}) ⟨rfl, rfl⟩ rfl
  have hf : file f {} = newline (statements f.type (expr f.type (budget f.stmts)) f.stmts {}) := by
    unfold file
    rw [hc]
    show newlineIfNeeded (statements f.type (expr f.type (budget f.stmts)) f.stmts {}) = _
    unfold newlineIfNeeded
    rw [if_pos hn]
  have hnl := ha.newline (fun s q => q.2.1)
  rw [← hf] at hnl
  obtain ⟨_, s, e1, t, e2, ht⟩ := hnl.2 hb'
  have hm : (statements f.type (expr f.type (budget f.stmts)) f.stmts {}).margin = 0 := by
    exact (keep_stmtLoop (ft := f.type) (pr := expr f.type (budget f.stmts)) (fun e o st => keep_expr f.type (budget f.stmts) e o st) _ {}).2
  refine ⟨t, ?_, ht⟩
  rw [← h, e1, e2, hm]
  show (List.reverse (t ++ [10]) ++ []).reverse = _
  simp

/-- the end of the input -/
theorem lexTo_end {st : State} (hr : st.rest = []) (hi : st.currentIndent = 0) (hd : st.indent = 0) :
    LexTo st [{ kind := K.eof, pos := st.pos }] { st with clean := false } := by
  refine LexTo.eof (fun nl => ?_) rfl
  unfold lexN
  rw [skip_end hr]
  dsimp only
  have ht : lexTok st = some ({ kind := K.eof, pos := st.pos }, { st with clean := false }) := by
    unfold lexTok
    dsimp only
    rw [hr]
    dsimp only
    refine (if_neg ?_).trans ?_
    · show ¬ st.currentIndent > 0
      omega
    · rfl
  by_cases hb : (decide (st.depth = 0) && st.clean) = true
  · rw [if_pos hb, if_neg (by omega), if_neg (by omega)]; exact ht
  · rw [if_neg hb]; exact ht

/-- more calls make no difference -/
theorem lexAll_det : ∀ (f g : Nat) (st : State) (ts : List Tok) (stf : State), lexAll f st = .ok ts stf → lexAll g st ≠ .fuel → lexAll g st = .ok ts stf := by
  intro f
  induction f with
  | zero => intro g st ts stf h; cases h
  | succ f ih =>
    intro g st ts stf h hg
    cases g with
    | zero => exact absurd rfl hg
    | succ g =>
      unfold lexAll at h hg ⊢
      cases hl : lex st with
      | none => rw [hl] at h; cases h
      | some p =>
        obtain ⟨t, st'⟩ := p
        rw [hl] at h hg
        dsimp only at h hg ⊢
        by_cases hk : t.kind = K.eof
        · rw [if_pos hk] at h ⊢; exact h
        · rw [if_neg hk] at h hg ⊢
          cases hf : lexAll f st' with
          | fuel => rw [hf] at h; cases h
          | error => rw [hf] at h; cases h
          | ok ts1 st1 =>
            rw [hf] at h
            have := ih g st' ts1 st1 hf (fun e => by rw [e] at hg; exact hg rfl)
            rw [this]
            exact h

theorem tokens_of {data : Bytes} {ts : List Tok} {stf : State} (h : LexTo (newInput data) ts stf) : tokens data = .ok ts stf := by
  obtain ⟨f, hf⟩ := h 0 (fun _ => rfl)
  rw [lexAllN_zero] at hf
  exact lexAll_det f _ _ _ _ hf (Props.Lexer.C47_terminates data)

/-- the tokens of a printed file -/
theorem printed_tokens {l : List Expr} {out : Bytes} (h : (l = [] ∧ out = []) ∨ ∃ t, out = t ++ [10] ∧ StmtT 0 l t) :
    ∃ ts te as stf, tokens out = .ok (ts ++ [te]) stf ∧ abs te = W K.eof [] ∧ ts.map abs = as ∧ StmtsG l as ∧ stf.lineComments = [] ∧ stf.suffixComments = [] := by
  rcases h with ⟨rfl, rfl⟩ | ⟨t, rfl, hs, _, ht⟩
  · obtain ⟨ts, st', h0, h1, h2, h3, h4, h5, h6, h7, h8⟩ := lex_lines 0 (newInput []) 0 [] rfl rfl
    refine ⟨ts, _, _, _, tokens_of (h8 _ _ (lexTo_end h1 (by unfold State.currentIndent; rw [h5]; rfl) h4)), rfl, h0, ?_, h6, h7⟩
    simpa using g_nl 1 g_stmts0
  · obtain ⟨as, hl, he⟩ := ht 1
    obtain ⟨ts, st', h0, h1, h2, h3, h4, h5, h6, h7, h8⟩ := hl (newInput (t ++ [10])) [] 0 (by simp [newInput, spaces, List.replicate]) (.inl ⟨rfl, rfl⟩) rfl rfl (fun _ => rfl) (Nat.le_refl 0)
    exact ⟨ts, _, _, _, tokens_of (h8 _ _ (lexTo_end h1 (by unfold State.currentIndent; rw [h5]; rfl) h4)), rfl, h0, he.stmts, h6, h7⟩

/-- the tokens have positions, and only a token at the start of the text has offset 0 -/
theorem tiled_pos {pre s : Bytes} {ts : List Tok} {cs : List Comment} (h : Props.Lexer.Tiled pre s ts cs) : (pre ++ s).head? ≠ some 58 → ∀ t ∈ ts, PosOK t := by
  induction h with
  | eof pre t h1 h2 h3 =>
    intro _ t' ht'
    rw [List.mem_singleton.1 ht']
    refine ⟨?_, fun hk => ?_⟩
    · rw [h3]; unfold Props.Lexer.posAt; dsimp only; omega
    · rw [h1] at hk; exact absurd hk (by decide)
  | blank pre c s ts cs _ _ ih => intro hh; exact ih (by rw [List.append_assoc]; exact hh)
  | continued pre s ts cs _ ih => intro hh; exact ih (by rw [List.append_assoc]; exact hh)
  | comment pre text s ts cs _ _ _ ih => intro hh; exact ih (by rw [List.append_assoc]; exact hh)
  | tok pre t s ts cs h1 h2 h3 _ ih =>
    intro hh t' ht'
    rcases List.mem_cons.1 ht' with rfl | ht'
    · refine ⟨?_, fun hk hb => ?_⟩
      · rw [h2]; unfold Props.Lexer.posAt; dsimp only; omega
      · rw [h2] at hb
        have hp : pre = [] := List.length_eq_zero_iff.1 hb
        have ht : t'.tok = [58] := by
          cases h3 with
          | fixed hm =>
            rw [hk] at hm
            have key : ∀ q ∈ Props.Lexer.fixedTokens, q.1 = 58 → q.2 = [58] := by decide
            exact key _ hm rfl
          | ident c s h => rw [hk] at h; exact absurd h (by decide)
          | int c s h => rw [hk] at h; exact absurd h (by decide)
          | string _ _ _ h => rw [hk] at h; exact absurd h (by decide)
          | comment _ h => rw [hk] at h; exact absurd h (by decide)
        rw [hp, ht] at hh
        exact hh rfl
    · exact ih (by rw [List.append_assoc]; exact hh) t' ht'

/-- A printed file is read back. -/
theorem reads {f : File} {out : Bytes} (ft : FileType) (hc : f.comments = {}) (hok : ∀ s ∈ f.stmts, OkStmt s) (htt : ∀ s ∈ f.stmts, tupleTight s = true)
    (h : format f = some out) : ∃ fuel f', Comm.parseFile fuel ft out = some f' ∧ SameL f.stmts f'.stmts := by
  have hp := format_spec hc hok htt h
  obtain ⟨ts, te, as, stf, ht, hte, hts, hg, hlc, hsc⟩ := printed_tokens hp
  obtain ⟨cs, hcs, _⟩ := Props.Lexer.C48_tiles _ _ _ ht
  have hpos : ∀ t ∈ ts ++ [te], PosOK t := by
    refine tiled_pos hcs ?_
    rcases hp with ⟨_, rfl⟩ | ⟨t, rfl, ⟨x, r, rfl, hx⟩, _⟩
    · decide
    · show some x ≠ some 58
      intro e
      injection e with e
      rw [e] at hx
      exact hx (by decide)
  have hfile : Gen (as ++ [W K.eof []]) (.n .file) (SL f.stmts) :=
    Gen.prod2 Fm.file_1 (by decide) (stmts_any hg) (gtok K.eof []) (fun v1 v2 q1 _ => ⟨_, rfl, q1⟩)
  obtain ⟨v, hv, hs⟩ := hfile (ts ++ [te]) (by rw [List.map_append, hts, List.map_cons, hte]; rfl) hpos
  obtain ⟨n, hn⟩ := C61_complete _ _ hv
  refine ⟨n, { type := ft, comments := (Comm.assign v.exprs [] []).1, stmts := (Comm.assign v.exprs [] []).2 }, ?_, ?_⟩
  · unfold Comm.parseFile
    rw [ht]
    dsimp only
    rw [hn, hlc, hsc]
  · show SameL _ (Comm.assign v.exprs [] []).2
    unfold Comm.assign
    exact sameL_lin (sameL_suf hs _) _

/-- A printed expression (without a newline at the end) is read back. -/
theorem reads_string {e : Expr} {out : Bytes} (ft : FileType) (hok : OkExpr e) (htt : tupleTight e = true)
    (h : formatString e = some out) : ∃ fuel f' e', Comm.parseFile fuel ft out = some f' ∧ f'.stmts = [e'] ∧ Same e e' := by
  have hn : e.isNil = false := (OkStmt.expr e hok).isNil
  unfold formatString at h
  rw [if_neg (by rw [hn]; simp)] at h
  dsimp only at h
  by_cases hb : (expr .build (budget [e]) e 0 {}).bad = true
  · rw [if_pos hb] at h; cases h
  rw [if_neg hb] at h
  injection h with h
  have hb' : (expr .build (budget [e]) e 0 {}).bad = false := by simpa using hb
  obtain ⟨_, hs⟩ := prS .build (budget [e]) e {} (OkStmt.expr e hok) htt ⟨rfl, rfl⟩ rfl
  obtain ⟨_, t, ho, hst, _, ht⟩ := hs hb'
  have hout : out = t := by rw [← h, ho]; show (t.reverse ++ []).reverse = t; simp
  subst hout
  obtain ⟨as, hl, he⟩ := ht 0
  obtain ⟨ts, st', h0, h1, h2, h3, h4, h5, h6, h7, h8⟩ := hl (newInput out) [] 0 (by simp [newInput, spaces, List.replicate]) (.inl ⟨rfl, rfl⟩) rfl rfl (fun _ => rfl) (Nat.le_refl 0)
  have htok := tokens_of (h8 _ _ (lexTo_end h1 (by unfold State.currentIndent; rw [h5]; rfl) h4))
  obtain ⟨cs, hcs, _⟩ := Props.Lexer.C48_tiles _ _ _ htok
  have hpos : ∀ t ∈ ts ++ [_], PosOK t := tiled_pos hcs (by
    obtain ⟨x, r, rfl, hx⟩ := hst
    show some x ≠ some 58
    intro e
    injection e with e
    rw [e] at hx
    exact hx (by decide))
  have hfile : Gen (as ++ [W K.eof []]) (.n .file) (SL [e]) :=
    Gen.prod2 Fm.file_1 (by decide) (stmts_any he.stmts) (gtok K.eof []) (fun v1 v2 q1 _ => ⟨_, rfl, q1⟩)
  obtain ⟨v, hv, hsm⟩ := hfile (ts ++ [_]) (by rw [List.map_append, h0, List.map_cons]; rfl) hpos
  obtain ⟨n, hnn⟩ := C61_complete _ _ hv
  have hsame : SameL [e] (Comm.assign v.exprs [] []).2 := by
    unfold Comm.assign
    exact sameL_lin (sameL_suf hsm _) _
  generalize hg : (Comm.assign v.exprs [] []).2 = l at hsame
  cases hsame with
  | cons _ x' _ l' hx hl =>
    cases hl
    refine ⟨n, { type := ft, comments := (Comm.assign v.exprs [] []).1, stmts := (Comm.assign v.exprs [] []).2 }, x', ?_, hg, hx⟩
    unfold Comm.parseFile
    rw [htok]
    dsimp only
    rw [hnn]
    dsimp only
    rw [h6, h7]
    rfl

end Verif.Round
