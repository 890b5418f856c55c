import Verif.Proofs.ParsedC
import Verif.Proofs.OkFree
import Verif.Props.CommentPlaces
/-
A parsed file whose comments are on statements only can be printed and read back.
-/
namespace Verif.Round
open Verif Verif.Syntax Verif.Lexer Verif.Print Verif.Parser Verif.Grammar Verif.Comm Verif.Props.Comments Verif.Props.Grammar

theorem isBlock_strip (x : Expr) : isBlock (strip x) = isBlock x := by cases x <;> simp [strip, isBlock]
theorem isCommentBlock_strip (x : Expr) : isCommentBlock (strip x) = isCommentBlock x := by cases x <;> simp [strip, isCommentBlock]

theorem stmtsOf_strip : ∀ {l m : List Expr}, stripL l = stripL m → stmtsOf l ≠ [] → stmtsOf m ≠ [] := by
  intro l
  induction l with
  | nil => intro m _ h; exact absurd rfl h
  | cons x l ih =>
    intro m hm h
    cases m with
    | nil => simp [stripL] at hm
    | cons y m =>
      simp only [stripL, List.cons.injEq] at hm
      have hb : isCommentBlock y = isCommentBlock x := by rw [← isCommentBlock_strip, ← hm.1, isCommentBlock_strip]
      cases hx : isCommentBlock x with
      | true => rw [stmtsOf_cons_block hx] at h; rw [stmtsOf_cons_block (hb.trans hx)]; exact ih hm.2 h
      | false => rw [stmtsOf_cons (hb.trans hx)]; simp

theorem strip_list {l m : List Expr} (h : stripL l = stripL m) : ∀ y ∈ m, ∃ x ∈ l, strip x = strip y := by
  induction l generalizing m with
  | nil =>
    cases m with
    | nil => intro y hy; cases hy
    | cons => simp [stripL] at h
  | cons x l ih =>
    cases m with
    | nil => intro y hy; cases hy
    | cons z m =>
      simp only [stripL, List.cons.injEq] at h
      intro y hy
      rcases List.mem_cons.1 hy with rfl | hy
      · exact ⟨x, List.mem_cons_self, h.1⟩
      · obtain ⟨w, hw, e⟩ := ih h.2 y hy
        exact ⟨w, List.mem_cons_of_mem _ hw, e⟩

theorem onStmtsL_iff {l : List Expr} : onStmtsL l = true ↔ ∀ x ∈ l, onStmts x = true := by
  induction l with
  | nil => simp [onStmtsL]
  | cons x l ih => simp [onStmtsL, ih]

theorem onStmts_simple {y : Expr} (hb : isBlock y = false) (hc : isCommentBlock y = false) (h : onStmts y = true) : comE (y.setComments {}) = [] := by
  cases y <;> first | (cases hb; done) | (cases hc; done) | (simpa [onStmts, List.isEmpty_iff] using h)

/-- the comments of a node are comments of the tree -/
theorem comC_sub (y : Expr) : ∀ c ∈ comC y.comments, c ∈ comE y := by
  intro c hc
  cases y <;> first | (simp_all [comE, Expr.comments]; done) | (simp [Expr.comments, comC] at hc)

theorem node_ok {c : Comments} {l : List Comment} (hl : ∀ x ∈ l, ComOK x) (h : ∀ x ∈ comC c, x ∈ l) : NodeOK c := by
  refine ⟨fun x hx => hl x (h x ?_), fun x hx => hl x (h x ?_), fun x hx => hl x (h x ?_)⟩ <;> simp [comC, hx]

theorem comL_sub {l : List Expr} {x : Expr} (hx : x ∈ l) : ∀ c ∈ comE x, c ∈ comL l := by
  induction l with
  | nil => cases hx
  | cons y l ih =>
    intro c hc
    rw [comL]
    rcases List.mem_cons.1 hx with rfl | hx
    · exact List.mem_append_left _ hc
    · exact List.mem_append_right _ (ih hx c hc)

theorem head_ok {x y : Expr} (hx : OkExpr x) (e : strip x = strip y) (h : onHead y = true) (hc : ∀ c ∈ comE y, ComOK c) : OkHead y := by
  unfold onHead at h
  simp only [Bool.and_eq_true, List.isEmpty_iff] at h
  refine ⟨?_, h.2, fun c hcc => hc c (comC_sub y c (by simp [comC, hcc]))⟩
  rw [← strip_root h.1, ← e, strip_id _ (okExprFree hx)]; exact hx

theorem same_free {x y : Expr} (hx : comE x = []) (e : strip x = strip y) (hy : comE y = []) : x = y := by
  rw [← strip_id _ hx, e, strip_id _ hy]

theorem okPlaces {x : Expr} (h : OkP x) : ∀ y, strip x = strip y → onStmts y = true → (∀ c ∈ comE y, ComOK c) → OkStmtC y := by
  induction h with
  | simple x hb hcb hok =>
    intro y e hy hc
    have hb' : isBlock y = false := by rw [← isBlock_strip, ← e, isBlock_strip]; exact hb
    have hcb' : isCommentBlock y = false := by rw [← isCommentBlock_strip, ← e, isCommentBlock_strip]; exact hcb
    refine .simple _ hb' ?_ (node_ok hc (comC_sub y))
    have h1 := onStmts_simple hb' hcb' hy
    rw [← strip_root h1, ← e, strip_root (okStmtFree hok (by rw [isBlock_set]; exact hb))]; exact hok
  | block c p =>
    intro y e hy hc
    cases y <;> simp [strip] at e
    rename_i c' p'
    simp only [onStmts, Bool.and_eq_true, List.isEmpty_iff, Bool.not_eq_true', List.isEmpty_eq_false_iff] at hy
    exact .block _ _ hy.1.1 hy.1.2 hy.2 (fun a ha => hc a (comC_sub _ a (by simp [comC, Expr.comments, ha])))
  | def_ c p name ps body cp fc fm ty h1 h2 h3 h4 h5 ih =>
    intro y e hy hc
    cases y <;> simp [strip] at e
    rename_i c' p' name' ps' body' cp' fc' fm' ty'
    simp only [onStmts, Bool.and_eq_true, List.isEmpty_iff] at hy
    obtain ⟨rfl, rfl, e1, e2, rfl, rfl, rfl, e3⟩ := e
    have ep : ps = ps' := by
      rw [← stripL_id (comL_nil.2 (fun a ha => okParamFree (h2 a ha))), e1, stripL_id hy.1.1]
    have et : ty = ty' := same_free (com_opt (fun hn => okFree (h3 hn))) e3 hy.1.2
    subst ep et
    refine .def_ _ _ _ _ _ _ _ _ _ (node_ok hc (comC_sub (.defS c' _ _ _ _ _ _ _ _))) h1 h2 h3 (stmtsOf_strip e2 h4) ?_
    intro s hs
    obtain ⟨w, hw, ew⟩ := strip_list e2 s hs
    exact ih w hw s ew (onStmtsL_iff.1 hy.2 s hs) (fun a ha => hc a (by simp [comE, comL_sub hs a ha]))
  | for_ c p v x body h1 h2 h3 h4 ih =>
    intro y e hy hc
    cases y <;> simp [strip] at e
    rename_i c' p' v' x' body'
    simp only [onStmts, Bool.and_eq_true, List.isEmpty_iff] at hy
    obtain ⟨rfl, e1, e2, e3⟩ := e
    have ev : v = v' := same_free (okVarsFree h1) e1 hy.1.1
    subst ev
    refine .for_ _ _ _ _ _ (node_ok hc (comC_sub (.forS c' _ _ _ _))) h1 (head_ok h2 e2 hy.1.2 (fun a ha => hc a (by simp [comE, ha]))) (stmtsOf_strip e3 h3) ?_
    intro s hs
    obtain ⟨w, hw, ew⟩ := strip_list e3 s hs
    exact ih w hw s ew (onStmtsL_iff.1 hy.2 s hs) (fun a ha => hc a (by simp [comE, comL_sub hs a ha]))
  | if_ c p x body ep els h1 h2 h3 h4 h5 ih1 ih2 =>
    intro y e hy hc
    cases y <;> simp [strip] at e
    rename_i c' p' x' body' ep' els'
    simp only [onStmts, Bool.and_eq_true] at hy
    obtain ⟨rfl, e1, e2, e3, e4⟩ := e
    refine .if_ _ _ _ _ _ _ (node_ok hc (comC_sub (.ifS c' _ _ _ _ _))) (head_ok h1 e1 hy.1.1 (fun a ha => hc a (by simp [comE, ha])))
      (fun a ha => hc a (by simp [comE, comC, ha])) (stmtsOf_strip e2 h2) ?_ ?_ ?_
    · intro s hs
      obtain ⟨w, hw, ew⟩ := strip_list e2 s hs
      exact ih1 w hw s ew (onStmtsL_iff.1 hy.1.2 s hs) (fun a ha => hc a (by simp [comE, comL_sub hs a ha]))
    · intro hne
      refine stmtsOf_strip e4 (h4 ?_)
      rintro rfl
      cases els' with
      | nil => exact hne rfl
      | cons => simp [stripL] at e4
    · intro s hs
      obtain ⟨w, hw, ew⟩ := strip_list e4 s hs
      exact ih2 w hw s ew (onStmtsL_iff.1 hy.2 s hs) (fun a ha => hc a (by simp [comE, comL_sub hs a ha]))

/-! ## The texts of the comments -/

theorem tiled_comOK {pre text ts cs} (h : Props.Lexer.Tiled pre text ts cs) : (∀ c ∈ cs, ComOK c) ∧ ∀ c ∈ tokC ts, ComOK c := by
  induction h with
  | eof pre t hk ht => exact ⟨nofun, by rw [tokC_one hk (by decide)]; nofun⟩
  | blank _ _ _ _ _ _ _ ih => exact ih
  | continued _ _ _ _ _ ih => exact ih
  | comment pre text s ts cs hall _ _ ih =>
    refine ⟨fun c hc => ?_, ih.2⟩
    rcases List.mem_cons.1 hc with rfl | hc
    · refine ⟨text, rfl, fun hn => ?_⟩
      have := List.all_eq_true.1 hall 10 (List.mem_cons_of_mem _ hn)
      exact absurd this (by decide)
    · exact ih.1 c hc
  | tok pre t s ts cs hk _ htx _ ih =>
    refine ⟨ih.1, fun c hc => ?_⟩
    have hc : c ∈ tokC ([t] ++ ts) := hc
    rw [tokC_append] at hc
    rcases List.mem_append.1 hc with hc | hc
    · by_cases hkc : t.kind = K.comment
      · rw [tokC_comment hkc] at hc
        rw [List.mem_singleton.1 hc]
        cases htx with
        | comment s h1 h2 h3 => exact ⟨s, h2, h3⟩
        | fixed hm =>
          have key : ∀ q ∈ Props.Lexer.fixedTokens, q.1 ≠ K.comment := by decide
          exact absurd hkc (key _ hm)
        | ident _ _ h1 => rw [h1] at hkc; exact absurd hkc (by decide)
        | int _ _ h1 => rw [h1] at hkc; exact absurd hkc (by decide)
        | string _ _ _ h1 => rw [h1] at hkc; exact absurd hkc (by decide)
      · have : tokC [t] = [] := by simp [tokC, hkc]
        rw [this] at hc; cases hc
    · exact ih.2 c hc

/-- **A file that parses, has comments on statements only and does not end with a backslash.** -/
theorem parsed_places {fuel : Nat} {ft : FileType} {data : Bytes} {f : File} (h : parseFile fuel ft data = some f) (hb : data.getLast? ≠ some 92)
    (hp : ∀ s ∈ f.stmts, onStmts s = true) (hne : ∀ c ∈ comF f, c.token ≠ []) : ComsOK f.comments.before ∧ ∀ s ∈ f.stmts, OkStmtC s := by
  have hcom : ∀ c ∈ comF f, ComOK c := by
    intro c hc
    obtain ⟨ts, cs, h1, h2⟩ := C46_file fuel ft data f h
    have hm : c ∈ (comF f).filter (fun c => !c.token.isEmpty) := List.mem_filter.2 ⟨hc, by simpa [List.isEmpty_iff] using hne c hc⟩
    obtain ⟨t1, t2⟩ := tiled_comOK h1
    rcases List.mem_append.1 (h2.mem_iff.1 hm) with hm | hm
    · exact t2 c hm
    · exact t1 c hm
  refine ⟨fun c hc => hcom c (by simp [comF, comC, hc]), fun s hs => ?_⟩
  have hs' := comL_sub hs
  refine (?_ : ∃ x, OkP x ∧ strip x = strip s).elim fun x hx => okPlaces hx.1 s hx.2 (hp s hs) (fun c hc => hcom c (by unfold comF; exact List.mem_append_right _ (hs' c hc)))
  unfold parseFile at h
  cases ht : tokens data with
  | ok ts st =>
    rw [ht] at h
    dsimp only at h
    cases hr : run fuel (initCfg ts) with
    | none => rw [hr] at h; cases h
    | some l =>
      rw [hr] at h
      cases h
      obtain ⟨v, hv, rfl⟩ := (C62_iff data ts st l ht).1 ⟨fuel, hr⟩
      obtain ⟨cs, h1, h2⟩ := Props.Lexer.C48_tiles data ts st ht
      have hcol : (([] : Bytes) ++ (data ++ [10])).head? ≠ some 58 := by
        intro e
        obtain ⟨t, r, rfl, hk⟩ := tiled_colon h1 e
        rw [colon_first t r hk] at hr
        cases hr
      have hT : ToksC ts := ⟨tokens_good ht, tiled_pos h1 hcol, fun a t u b e k => tokens_block ht hb a t u b e k⟩
      have hok : ∀ s ∈ v.exprs, OkP s := parsedC_induct parsedC_steps hv hT
      obtain ⟨x, hx, e⟩ := strip_list (strip_assign v.exprs st.suffixComments st.lineComments).symm s hs
      exact ⟨x, hok x hx, e⟩
  | _ => rw [ht] at h; cases h

end Verif.Round
