import Verif.Proofs.PrintStC
import Verif.Proofs.RoundFile
/-
A printed file with comments is read back.
-/
namespace Verif.Round
open Verif Verif.Syntax Verif.Lexer Verif.Print Verif.Parser Verif.Grammar Verif.Props.Grammar Verif.Comm

/-! ## Assigning comments -/

theorem suf_block (x : Expr) (l : List Comment) : isCommentBlock (sufE x l).1 = isCommentBlock x := by
  cases x <;> simp only [sufE] <;> rfl

theorem lin_block (x : Expr) (l : List Comment) : isCommentBlock (linE x l).1 = isCommentBlock x := by
  cases x <;> simp only [linE] <;> rfl

/-- a relation between the elements of two lists -/
inductive All2S (P : Expr → Expr → Prop) : List Expr → List Expr → Prop
  | nil : All2S P [] []
  | cons {x y l m} : P x y → All2S P l m → All2S P (x :: l) (y :: m)

/-- from the elements to the lists -/
theorem ss_suf {P : Expr → Expr → Prop} (hP : ∀ e x, P e x → ∀ l, SameS e (sufE x l).1) : ∀ (x e : List Expr), All2S P e (stmtsOf x) → ∀ l, SameSL e (stmtsOf (sufL x l).1) := by
  intro x
  induction x with
  | nil => intro e h l; simp only [sufL]; cases h; exact .nil
  | cons a x ih =>
    intro e h l
    simp only [sufL]
    cases hb : isCommentBlock a with
    | true =>
      rw [stmtsOf_cons_block hb] at h
      rw [stmtsOf_cons_block (by rw [suf_block]; exact hb)]
      exact ih e h l
    | false =>
      rw [stmtsOf_cons hb] at h
      rw [stmtsOf_cons (by rw [suf_block]; exact hb)]
      cases h with
      | cons h1 h2 => exact .cons _ _ _ _ (hP _ _ h1 _) (ih _ h2 l)

theorem ss_lin {P : Expr → Expr → Prop} (hP : ∀ e x, P e x → ∀ l, SameS e (linE x l).1) : ∀ (x e : List Expr), All2S P e (stmtsOf x) → ∀ l, SameSL e (stmtsOf (linL x l).1) := by
  intro x
  induction x with
  | nil => intro e h l; simp only [linL]; cases h; exact .nil
  | cons a x ih =>
    intro e h l
    simp only [linL]
    cases hb : isCommentBlock a with
    | true =>
      rw [stmtsOf_cons_block hb] at h
      rw [stmtsOf_cons_block (by rw [lin_block]; exact hb)]
      exact ih e h _
    | false =>
      rw [stmtsOf_cons hb] at h
      rw [stmtsOf_cons (by rw [lin_block]; exact hb)]
      cases h with
      | cons h1 h2 => exact .cons _ _ _ _ (hP _ _ h1 _) (ih _ h2 _)

theorem sameS_suf : (∀ {e x : Expr}, SameS e x → ∀ l, SameS e (sufE x l).1) ∧ (∀ {e x : List Expr}, SameSL e x → All2S (fun e x => ∀ l, SameS e (sufE x l).1) e x) := by
  constructor
  · intro e x h
    refine SameS.rec (motive_1 := fun e x _ => ∀ l, SameS e (sufE x l).1) (motive_2 := fun e x _ => All2S (fun e x => ∀ l, SameS e (sufE x l).1) e x) ?_ ?_ ?_ ?_ ?_ ?_ h
    · intro e e' hb h l; exact .simple _ _ hb (same_suf h l)
    · intro c p name ps b cp x y t c' p' ps' b' cp' x' y' t' h1 h2 h3 ih l
      simp only [sufE]
      exact .defS _ _ _ _ _ _ _ _ _ _ _ _ _ _ _ _ _ (sameL_suf h1 _) (ss_suf (fun _ _ h => h) _ _ ih _) h3
    · intro c p v x b c' p' v' x' b' h1 h2 h3 ih l
      simp only [sufE]
      exact .forS _ _ _ _ _ _ _ _ _ _ (same_suf h1 _) (same_suf h2 _) (ss_suf (fun _ _ h => h) _ _ ih _)
    · intro c p x t ep f c' p' x' t' ep' f' h1 h2 h3 ih1 ih2 l
      simp only [sufE]
      exact .ifS _ _ _ _ _ _ _ _ _ _ _ _ (same_suf h1 _) (ss_suf (fun _ _ h => h) _ _ ih1 _) (ss_suf (fun _ _ h => h) _ _ ih2 _)
    · exact .nil
    · intro x x' l l' _ _ h1 h2; exact .cons h1 h2
  · intro e x h
    refine SameSL.rec (motive_1 := fun e x _ => ∀ l, SameS e (sufE x l).1) (motive_2 := fun e x _ => All2S (fun e x => ∀ l, SameS e (sufE x l).1) e x) ?_ ?_ ?_ ?_ ?_ ?_ h
    · intro e e' hb h l; exact .simple _ _ hb (same_suf h l)
    · intro c p name ps b cp x y t c' p' ps' b' cp' x' y' t' h1 h2 h3 ih l
      simp only [sufE]
      exact .defS _ _ _ _ _ _ _ _ _ _ _ _ _ _ _ _ _ (sameL_suf h1 _) (ss_suf (fun _ _ h => h) _ _ ih _) h3
    · intro c p v x b c' p' v' x' b' h1 h2 h3 ih l
      simp only [sufE]
      exact .forS _ _ _ _ _ _ _ _ _ _ (same_suf h1 _) (same_suf h2 _) (ss_suf (fun _ _ h => h) _ _ ih _)
    · intro c p x t ep f c' p' x' t' ep' f' h1 h2 h3 ih1 ih2 l
      simp only [sufE]
      exact .ifS _ _ _ _ _ _ _ _ _ _ _ _ (same_suf h1 _) (ss_suf (fun _ _ h => h) _ _ ih1 _) (ss_suf (fun _ _ h => h) _ _ ih2 _)
    · exact .nil
    · intro x x' l l' _ _ h1 h2; exact .cons h1 h2

theorem sameS_lin : (∀ {e x : Expr}, SameS e x → ∀ l, SameS e (linE x l).1) ∧ (∀ {e x : List Expr}, SameSL e x → All2S (fun e x => ∀ l, SameS e (linE x l).1) e x) := by
  constructor
  · intro e x h
    refine SameS.rec (motive_1 := fun e x _ => ∀ l, SameS e (linE x l).1) (motive_2 := fun e x _ => All2S (fun e x => ∀ l, SameS e (linE x l).1) e x) ?_ ?_ ?_ ?_ ?_ ?_ h
    · intro e e' hb h l; exact .simple _ _ hb (same_lin h l)
    · intro c p name ps b cp x y t c' p' ps' b' cp' x' y' t' h1 h2 h3 ih l
      simp only [linE]
      exact .defS _ _ _ _ _ _ _ _ _ _ _ _ _ _ _ _ _ (sameL_lin h1 _) (ss_lin (fun _ _ h => h) _ _ ih _) h3
    · intro c p v x b c' p' v' x' b' h1 h2 h3 ih l
      simp only [linE]
      exact .forS _ _ _ _ _ _ _ _ _ _ (same_lin h1 _) (same_lin h2 _) (ss_lin (fun _ _ h => h) _ _ ih _)
    · intro c p x t ep f c' p' x' t' ep' f' h1 h2 h3 ih1 ih2 l
      simp only [linE]
      exact .ifS _ _ _ _ _ _ _ _ _ _ _ _ (same_lin h1 _) (ss_lin (fun _ _ h => h) _ _ ih1 _) (ss_lin (fun _ _ h => h) _ _ ih2 _)
    · exact .nil
    · intro x x' l l' _ _ h1 h2; exact .cons h1 h2
  · intro e x h
    refine SameSL.rec (motive_1 := fun e x _ => ∀ l, SameS e (linE x l).1) (motive_2 := fun e x _ => All2S (fun e x => ∀ l, SameS e (linE x l).1) e x) ?_ ?_ ?_ ?_ ?_ ?_ h
    · intro e e' hb h l; exact .simple _ _ hb (same_lin h l)
    · intro c p name ps b cp x y t c' p' ps' b' cp' x' y' t' h1 h2 h3 ih l
      simp only [linE]
      exact .defS _ _ _ _ _ _ _ _ _ _ _ _ _ _ _ _ _ (sameL_lin h1 _) (ss_lin (fun _ _ h => h) _ _ ih _) h3
    · intro c p v x b c' p' v' x' b' h1 h2 h3 ih l
      simp only [linE]
      exact .forS _ _ _ _ _ _ _ _ _ _ (same_lin h1 _) (same_lin h2 _) (ss_lin (fun _ _ h => h) _ _ ih _)
    · intro c p x t ep f c' p' x' t' ep' f' h1 h2 h3 ih1 ih2 l
      simp only [linE]
      exact .ifS _ _ _ _ _ _ _ _ _ _ _ _ (same_lin h1 _) (ss_lin (fun _ _ h => h) _ _ ih1 _) (ss_lin (fun _ _ h => h) _ _ ih2 _)
    · exact .nil
    · intro x x' l l' _ _ h1 h2; exact .cons h1 h2

theorem ss_assign {l m : List Expr} (h : SS l m) (s c : List Comment) : SS l (assign m s c).2 := by
  unfold assign
  dsimp only
  exact ss_lin (fun _ _ h => h) _ _ (sameS_lin.2 (ss_suf (fun _ _ h => h) _ _ (sameS_suf.2 h) _)) _

/-! ## The file -/

theorem file_fold : ∀ (l : List Comment) (st : St), fileComments l st = l.foldl (fun st c => newline (emit (comText c) st)) st := by
  intro l
  induction l with
  | nil => intro st; rfl
  | cons c l ih => intro st; exact ih _

theorem file_fresh : ∀ (l : List Comment) (st : St), Fresh st → Fresh (fileComments l st) := by
  intro l
  induction l with
  | nil => intro st h; exact h
  | cons c l ih => intro st h; exact ih _ (fresh_newline _)

/-- what is printed for a file -/
theorem format_specC {f : File} {out : Bytes} (hcb : ComsOK f.comments.before) (hca : f.comments.after = []) (hok : ∀ s ∈ f.stmts, OkStmtC s) (htt : ∀ s ∈ f.stmts, tupleTight s = true)
    (h : format f = some out) : ∃ g ag, Fil g ag ∧ ((stmtsOf f.stmts = [] ∧ out = g) ∨ ∃ t, out = g ++ t ∧ LnC 0 (ExtC f.stmts) t) := by
  unfold format at h
  dsimp only at h
  by_cases hb : (file f {}).bad = true
  · rw [if_pos hb] at h; cases h
  rw [if_neg hb] at h
  injection h with h
  have hb' : (file f {}).bad = false := by simpa using hb
  have hc0 : Clean ({} : St) := ⟨rfl, rfl⟩
  obtain ⟨⟨g, ag, hg, h1⟩, h2⟩ := before_fold (m := 0) f.comments.before {} {} [] [] hcb rfl .nil ((Adds.refl hc0).mono (by rintro _ rfl; rfl))
  rw [← file_fold] at h1 h2
  have hf := file_fresh f.comments.before {} ⟨[], rfl, .inl rfl⟩
  by_cases hl : f.stmts = []
  · have e : file f {} = fileComments f.comments.before {} := by
      unfold file
      rw [hca, hl]
      show newlineIfNeeded (fileComments f.comments.before {}) = _
      unfold newlineIfNeeded
      rw [h1.1.2]
      rfl
    rw [e] at hb' h
    obtain ⟨_, s, es, q⟩ := h1.2 hb'
    refine ⟨g, ag, hg, .inl ⟨by rw [hl]; rfl, ?_⟩⟩
    rw [← h, es]
    have : s = g := by simpa [spaces] using q
    rw [this]
    show (g.reverse ++ []).reverse = g
    simp
  · obtain ⟨ha, hn⟩ := statementsC (ft := f.type) (prC f.type (budget f.stmts)) (fun e o st => keep_expr f.type (budget f.stmts) e o st) hl hok htt h1.1 hf (h2.1)
    have hm0 : (fileComments f.comments.before {}).margin = 0 := h2.2
    rw [hm0] at ha
    have hfile : file f {} = newline (statements f.type (expr f.type (budget f.stmts)) f.stmts (fileComments f.comments.before {})) := by
      unfold file
      rw [hca]
      show newlineIfNeeded (statements f.type (expr f.type (budget f.stmts)) f.stmts (fileComments f.comments.before {})) = _
      unfold newlineIfNeeded
      rw [if_pos hn]
    have hm : (statements f.type (expr f.type (budget f.stmts)) f.stmts (fileComments f.comments.before {})).margin = 0 := by
      exact ((keep_stmtLoop (ft := f.type) (pr := expr f.type (budget f.stmts)) (fun e o st => keep_expr f.type (budget f.stmts) e o st) _ _).2).trans hm0
    have h3 := (h1.transC (fun _ => ha) (R := fun t p => ∃ s1 s2, t = s1 ++ s2 ∧ spaces 0 ++ s1 = g ++ spaces 0 ∧ BlkT 0 f.stmts s2 p) (fun s1 s2 p _ q1 q2 => ⟨s1, s2, rfl, q1, q2⟩)).newline
    rw [← hfile, hm] at h3
    obtain ⟨_, s, es, _, p, rfl, hp, s1, s2, rfl, q1, q2⟩ := h3.2 hb'
    have e1 : s1 = g := by simpa [spaces] using q1
    have e2 : out = g ++ (s2 ++ nlText 0 p) := by
      rw [← h, es, e1]
      show ((g ++ s2 ++ (nlText 0 p ++ [])).reverse ++ []).reverse = _
      simp
    rcases q2.end 0 with ⟨w1, a, w2⟩ | ⟨g2, ag2, t', w1, w2, w3⟩
    · exact ⟨_, _, hg.app w2, .inl ⟨w1, e2⟩⟩
    · refine ⟨_, _, hg.app w1, .inr ⟨t', ?_, w3⟩⟩
      rw [e2]
      have : s2 ++ nlText 0 p = g2 ++ t' := w2
      rw [this, List.append_assoc]

theorem fil_head {g : Bytes} {ag : List ATok} (h : Fil g ag) : g = [] ∨ ∃ x r, g = x :: r ∧ x ≠ 58 := by
  cases h with
  | nil => exact .inl rfl
  | blank g ag _ => exact .inr ⟨_, _, rfl, by decide⟩
  | com k c g ag hc _ =>
    obtain ⟨r, rfl, _⟩ := hc
    cases k with
    | zero => exact .inr ⟨_, _, rfl, by decide⟩
    | succ k => exact .inr ⟨_, _, rfl, by decide⟩

/-- the tokens of a printed file -/
theorem printed_tokensC {l : List Expr} {g : Bytes} {ag : List ATok} {out : Bytes} (hg : Fil g ag) (h : (stmtsOf l = [] ∧ out = g) ∨ ∃ t, out = g ++ t ∧ LnC 0 (ExtC l) t) :
    ∃ ts te as stf, tokens out = .ok (ts ++ [te]) stf ∧ abs te = W K.eof [] ∧ ts.map abs = as ∧ StmtsC l as := by
  rcases h with ⟨hl, rfl⟩ | ⟨t, rfl, core, w, aw, rfl, hs, hw, hr⟩
  · have hg' := hg.app (.blank [] [] .nil)
    obtain ⟨ts, st', h0, h1, h2, h3, h4, h5, h6⟩ := lex_fil hg' (newInput out) 0 [] (by simp [newInput, spaces]) rfl rfl rfl
    refine ⟨ts, _, _, _, tokens_of (h6 _ _ (lexTo_end h1 (by unfold State.currentIndent; rw [h5]; rfl) h4)), rfl, h0, ?_⟩
    have := c_fil hg' c_stmts0
    exact StmtsC.cast this (by rw [hl]; rfl)
  · have hw' := hw.app (.blank [] [] .nil)
    obtain ⟨as, hls, he⟩ := hr _ _ hw'
    obtain ⟨ts, st', h0, h1, h2, h3, h4, h5, h6⟩ := lex_fil hg (newInput (g ++ (core ++ w))) 0 (core ++ (w ++ [10])) (by simp [newInput, spaces]) rfl rfl rfl
    obtain ⟨ts2, st2, k0, k1, k2, k3, k4, k5, k6⟩ := hls st' [] 0 (by rw [h1]; simp [spaces]) (.inl ⟨rfl, rfl⟩) h2 (by unfold State.currentIndent; rw [h5]; rfl) (fun _ => h4) (Nat.le_refl 0)
    have hlex := h6 _ _ (k6 _ _ (lexTo_end k1 (by unfold State.currentIndent; rw [k5, h5]; rfl) k4))
    rw [← List.append_assoc ts] at hlex
    refine ⟨ts ++ ts2, _, _, _, tokens_of hlex, rfl, rfl, ?_⟩
    rw [List.map_append, h0, k0]
    exact he [] _ (c_fil hg c_stmts0)

/-- A printed file is read back. -/
theorem readsC {f : File} {out : Bytes} (ft : FileType) (hcb : ComsOK f.comments.before) (hca : f.comments.after = []) (hok : ∀ s ∈ f.stmts, OkStmtC s) (htt : ∀ s ∈ f.stmts, tupleTight s = true)
    (h : format f = some out) : ∃ fuel f', Comm.parseFile fuel ft out = some f' ∧ SameSL (stmtsOf f.stmts) (stmtsOf f'.stmts) := by
  obtain ⟨g, ag, hg, hp⟩ := format_specC hcb hca hok htt h
  obtain ⟨ts, te, as, stf, ht, hte, hts, hgen⟩ := printed_tokensC hg hp
  obtain ⟨cs, hcs, _⟩ := Props.Lexer.C48_tiles _ _ _ ht
  have hpos : ∀ t ∈ ts ++ [te], PosOK t := by
    refine tiled_pos hcs ?_
    have hd : out = [] ∨ ∃ x r, out = x :: r ∧ x ≠ 58 := by
      rcases hp with ⟨_, rfl⟩ | ⟨t, rfl, htx⟩
      · exact fil_head hg
      · rcases fil_head hg with rfl | ⟨x, r, rfl, hx⟩
        · obtain ⟨x, r, rfl, hx⟩ := htx.start
          exact .inr ⟨x, r, rfl, fun e => by rw [e] at hx; exact hx (by decide)⟩
        · exact .inr ⟨x, r ++ t, rfl, hx⟩
    rcases hd with rfl | ⟨x, r, rfl, hx⟩
    · decide
    · show some x ≠ some 58
      intro e
      injection e with e
      exact hx e
  have hfile : Gen (as ++ [W K.eof []]) (.n .file) (SSv f.stmts) :=
    Gen.prod2 Fm.file_1 (by decide) (stmts_any hgen) (gtok K.eof []) (fun v1 v2 q1 _ => ⟨_, rfl, q1⟩)
  obtain ⟨v, hv, hs⟩ := hfile (ts ++ [te]) (by rw [List.map_append, hts, List.map_cons, hte]; rfl) hpos
  obtain ⟨n, hn⟩ := C61_complete _ _ hv
  refine ⟨n, { type := ft, comments := (Comm.assign v.exprs stf.suffixComments stf.lineComments).1, stmts := (Comm.assign v.exprs stf.suffixComments stf.lineComments).2 }, ?_, ?_⟩
  · unfold Comm.parseFile
    rw [ht]
    dsimp only
    rw [hn]
  · exact ss_assign hs _ _

end Verif.Round
