import Verif.Proofs.ParsedT
import Verif.Proofs.RoundFile
import Verif.Props.Sound
import Verif.Props.Comments
/-
A file that parses and has no comments satisfies `OkStmt`.
-/
namespace Verif.Round
open Verif Verif.Syntax Verif.Lexer Verif.Print Verif.Parser Verif.Grammar Verif.Props.Grammar Verif.Comm Verif.Props.Comments

/-! ## Handing out no comments changes nothing -/

theorem comC_nil {c : Comments} (h : comC c = []) : c = {} := by
  cases c with
  | mk b s a =>
    unfold comC at h
    simp only [List.append_eq_nil_iff] at h
    obtain ⟨⟨rfl, rfl⟩, rfl⟩ := h
    rfl

theorem sufC_id {c : Comments} (h : c = {}) (e : Pos) : sufC c e [] = ({}, []) := by subst h; rfl
theorem linC_id {c : Comments} (h : c = {}) (e : Pos) : linC c e [] = ({}, []) := by subst h; rfl
theorem sufEnd_id {e : EndN} (h : e.comments = {}) : sufEnd e [] = (e, []) := by cases e; dsimp only at h; subst h; rfl
theorem linEnd_id {e : EndN} (h : e.comments = {}) : linEnd e [] = (e, []) := by cases e; dsimp only at h; subst h; rfl
theorem sufIdent_id {e : IdentN} (h : e.comments = {}) : sufIdent e [] = (e, []) := by cases e; dsimp only at h; subst h; rfl
theorem linIdent_id {e : IdentN} (h : e.comments = {}) : linIdent e [] = (e, []) := by cases e; dsimp only at h; subst h; rfl
theorem sufString_id {e : StringN} (h : e.comments = {}) : sufString e [] = (e, []) := by cases e; dsimp only at h; subst h; rfl
theorem linString_id {e : StringN} (h : e.comments = {}) : linString e [] = (e, []) := by cases e; dsimp only at h; subst h; rfl

theorem sufLoad_id : ∀ (fs ts : List IdentN), comI fs = [] → comI ts = [] → sufLoad fs ts [] = (fs, ts, [])
  | [], _, _, _ => by unfold sufLoad; rfl
  | _ :: _, [], _, _ => by unfold sufLoad; rfl
  | f :: fs, t :: ts, h1, h2 => by
    simp only [comI, List.append_eq_nil_iff] at h1 h2
    unfold sufLoad
    simp only [sufLoad_id fs ts h1.2 h2.2, sufIdent_id (comC_nil h1.1), sufIdent_id (comC_nil h2.1)]

theorem linLoad_id : ∀ (fs ts : List IdentN), comI fs = [] → comI ts = [] → linLoad fs ts [] = (fs, ts, [])
  | [], _, _, _ => by unfold linLoad; rfl
  | _ :: _, [], _, _ => by unfold linLoad; rfl
  | f :: fs, t :: ts, h1, h2 => by
    simp only [comI, List.append_eq_nil_iff] at h1 h2
    unfold linLoad
    simp only [linLoad_id fs ts h1.2 h2.2, linIdent_id (comC_nil h1.1), linIdent_id (comC_nil h2.1)]

theorem ite_pair_id (b : Bool) (e : EndN) {f : EndN → List Comment → EndN × List Comment} (h : f e [] = (e, [])) :
    (if b = true then (e, ([] : List Comment)) else f e []) = (e, []) := by
  cases b
  · exact h
  · rfl

theorem comC_iff {c : Comments} : comC c = [] ↔ c = {} := ⟨comC_nil, fun h => by subst h; rfl⟩
theorem sufC_z (e : Pos) : sufC {} e [] = ({}, []) := rfl
theorem linC_z (e : Pos) : linC {} e [] = ({}, []) := rfl

theorem suf_id (x : Expr) : comE x = [] → sufE x [] = (x, []) := by
  refine Expr.rec (motive_1 := fun x => comE x = [] → sufE x [] = (x, [])) (motive_2 := fun l => comL l = [] → sufL l [] = (l, []))
    ?_ ?_ ?_ ?_ ?_ ?_ ?_ ?_ ?_ ?_ ?_ ?_ ?_ ?_ ?_ ?_ ?_ ?_ ?_ ?_ ?_ ?_ ?_ ?_ ?_ ?_ ?_ ?_ ?_ ?_ ?_ ?_ ?_ x
  all_goals intros
  all_goals simp only [comE, comL, List.append_eq_nil_iff, comC_iff] at *
  all_goals simp_all [sufE, sufL, sufC_z, sufEnd_id, sufIdent_id, sufString_id, sufLoad_id]

theorem lin_id (x : Expr) : comE x = [] → linE x [] = (x, []) := by
  refine Expr.rec (motive_1 := fun x => comE x = [] → linE x [] = (x, [])) (motive_2 := fun l => comL l = [] → linL l [] = (l, []))
    ?_ ?_ ?_ ?_ ?_ ?_ ?_ ?_ ?_ ?_ ?_ ?_ ?_ ?_ ?_ ?_ ?_ ?_ ?_ ?_ ?_ ?_ ?_ ?_ ?_ ?_ ?_ ?_ ?_ ?_ ?_ ?_ ?_ x
  all_goals intros
  all_goals simp only [comE, comL, List.append_eq_nil_iff, comC_iff] at *
  all_goals simp_all [linE, linL, linC_z, linEnd_id, linIdent_id, linString_id, linLoad_id]

theorem sufL_id : ∀ l : List Expr, comL l = [] → sufL l [] = (l, [])
  | [], _ => by simp [sufL]
  | x :: l, h => by
    simp only [comL, List.append_eq_nil_iff] at h
    simp [sufL, sufL_id l h.2, suf_id x h.1]

theorem linL_id : ∀ l : List Expr, comL l = [] → linL l [] = (l, [])
  | [], _ => by simp [linL]
  | x :: l, h => by
    simp only [comL, List.append_eq_nil_iff] at h
    simp [linL, linL_id l h.2, lin_id x h.1]

theorem assign_id {l : List Expr} (h : comL l = []) : assign l [] [] = ({}, l) := by
  unfold assign
  simp only [List.reverse_nil, sufL_id l h, linC_z, linL_id l h]

/-! ## A file does not start with a colon -/

theorem colon_first (t : Tok) (rest : List Tok) (h : t.kind = 58 ∨ t.kind = K.indent ∨ t.kind = K.unindent) (n : Nat) : run n (initCfg (t :: rest)) = none := by
  have a0 : action 0 (tokNum t.kind) = .reduce 9 := by
    rcases h with h | h | h <;> rw [h] <;> decide +kernel
  have a2 : action 2 (tokNum t.kind) = .err := by
    rcases h with h | h | h <;> rw [h] <;> decide +kernel
  have s0 : ∃ v, step (initCfg (t :: rest)) = .next ⟨[(2, v), (0, {})], t :: rest⟩ := by
    unfold step initCfg lookahead
    dsimp only
    rw [a0]
    have e1 : (LR.look LR.yyR2 9).toNat = 0 := by decide +kernel
    have e2 : goto_ 0 9 = 2 := by decide +kernel
    dsimp only
    rw [e1]
    exact ⟨_, by rw [← e2]; rfl⟩
  have s2 : ∀ v, step ⟨[(2, v), (0, {})], t :: rest⟩ = .error := by
    intro v
    unfold step lookahead
    dsimp only
    rw [a2]
  obtain ⟨v, s0⟩ := s0
  cases n with
  | zero => rfl
  | succ n =>
    unfold run
    rw [s0]
    dsimp only
    cases n with
    | zero => rfl
    | succ n => unfold run; rw [s2]

/-- the first token of a text that starts with a colon -/
theorem tiled_colon {pre s : Bytes} {ts : List Tok} {cs : List Comment} (h : Props.Lexer.Tiled pre s ts cs) (hh : s.head? = some 58) :
    ∃ t r, ts = t :: r ∧ (t.kind = 58 ∨ t.kind = K.indent ∨ t.kind = K.unindent) := by
  cases h with
  | eof => cases hh
  | blank _ c s ts cs hc _ =>
    injection hh with hh
    subst hh
    rcases hc with hc | hc | hc | hc <;> exact absurd hc (by decide)
  | continued => injection hh with hh; exact absurd hh (by decide)
  | comment => injection hh with hh; exact absurd hh (by decide)
  | tok _ t s ts cs hk _ htx _ =>
    refine ⟨t, ts, rfl, ?_⟩
    cases htx with
    | fixed hm =>
      have key : ∀ q ∈ Props.Lexer.fixedTokens, (q.2 = [] ∨ q.2.head? = some 58) → (q.1 = K.eof ∨ q.1 = 58 ∨ q.1 = K.indent ∨ q.1 = K.unindent) := by decide
      have := key _ hm (by
        cases he : t.tok with
        | nil => exact .inl rfl
        | cons x r => rw [he] at hh; exact .inr hh)
      exact this.resolve_left hk
    | ident c s h1 h2 h3 h4 =>
      rw [h2] at hh
      injection hh with hh
      subst hh
      exact absurd h4 (by unfold Props.Lexer.wordByte; decide)
    | int c s h1 h2 h3 =>
      rw [h2] at hh
      injection hh with hh
      subst hh
      exact absurd h3 (by decide)
    | string raw delim body h1 h2 h3 h4 =>
      rw [h2] at hh
      have key : ∀ d ∈ [b!"\"", b!"'", b!"\"\"\"", b!"'''"], ∃ x r, d = x :: r ∧ x ≠ 58 := by
        intro d hd
        simp only [List.mem_cons, List.not_mem_nil, or_false] at hd
        rcases hd with rfl | rfl | rfl | rfl
        all_goals exact ⟨_, _, rfl, by decide⟩
      obtain ⟨x, r, rfl, hx⟩ := key _ h4
      rcases h3 with rfl | rfl
      · injection hh with hh; exact absurd hh hx
      · injection hh with hh; exact absurd hh (by decide)
    | comment s h1 h2 =>
      rw [h2] at hh
      injection hh with hh
      exact absurd hh (by decide)

theorem tokC_nil {ts : List Tok} (h : tokC ts = []) : ∀ t ∈ ts, t.kind ≠ K.comment := by
  intro t ht hk
  have : (⟨t.pos, t.tok⟩ : Comment) ∈ tokC ts := List.mem_filterMap.2 ⟨t, ht, by rw [if_pos hk]⟩
  rw [h] at this
  cases this

/-- **A file that parses, has no comments and does not end with a backslash can be printed and read back.** -/
theorem parsed_ok {fuel : Nat} {ft : FileType} {data : Bytes} {f : File} (h : parseFile fuel ft data = some f) (hc : comF f = []) (hb : data.getLast? ≠ some 92) :
    f.comments = {} ∧ ∀ s ∈ f.stmts, OkStmt s := by
  unfold parseFile at h
  cases ht : tokens data with
  | ok ts st =>
    rw [ht] at h
    dsimp only at h
    cases hr : run fuel (initCfg ts) with
    | none => rw [hr] at h; cases h
    | some l =>
      rw [hr] at h
      cases h
      have h3 := C46_assign l st.suffixComments st.lineComments
      have hc' : comC (assign l st.suffixComments st.lineComments).1 ++ comL (assign l st.suffixComments st.lineComments).2 = [] := hc
      rw [hc'] at h3
      have h4 := h3.symm.eq_nil
      simp only [List.append_eq_nil_iff] at h4
      obtain ⟨⟨h5, h6⟩, h7⟩ := h4
      obtain ⟨v, hv, rfl⟩ := (C62_iff data ts st l ht).1 ⟨fuel, hr⟩
      dsimp only
      rw [h6, h7, assign_id h5]
      refine ⟨rfl, ?_⟩
      obtain ⟨cs, h1, h2⟩ := Props.Lexer.C48_tiles data ts st ht
      have hcol : (([] : Bytes) ++ (data ++ [10])).head? ≠ some 58 := by
        intro e
        obtain ⟨t, r, rfl, hk⟩ := tiled_colon h1 e
        rw [colon_first t r hk] at hr
        cases hr
      have hcnt := parse_tokC (C61_refines hv) (fun a t u b e k => Props.Lexer.C47_block_start data ts st ht a t u b e k)
      have hp : List.Perm (comL v.exprs) (tokC ts) := List.perm_iff_count.2 hcnt
      rw [h5] at hp
      have hT : Toks ts := ⟨tokens_good ht, tiled_pos h1 hcol, tokC_nil hp.symm.eq_nil, fun a t u b e k => tokens_block ht hb a t u b e k⟩
      exact (parsed_induct parsed_steps hv hT).1
  | _ => rw [ht] at h; cases h

end Verif.Round
