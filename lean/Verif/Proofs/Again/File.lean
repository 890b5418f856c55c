import Verif.Proofs.RoundFile
import Verif.Proofs.ParsedFile
import Verif.Proofs.Again.PrintF
import Verif.Proofs.Again.Fuel
/-
A printed file is read back as it was printed.
-/
namespace Verif.Again
open Verif Verif.Syntax Verif.Lexer Verif.Print Verif.Grammar Verif.Parser Verif.Round Verif.Props.Grammar

/-- what is printed for a file without comments -/
theorem format_spec {f : File} {out : Bytes} (hft : f.type ≠ .module) (hc : f.comments = {}) (hok : ∀ s ∈ f.stmts, OkStmt s) (hfo : ∀ s ∈ f.stmts, Fo s) (htt : ∀ s ∈ f.stmts, tupleTight s = true)
    (h : format f = some out) : (f.stmts = [] ∧ out = []) ∨ (f.stmts ≠ [] ∧
      newlineIfNeeded (stmtLoop f.type (expr f.type (budget f.stmts)) f.stmts {}) = file f {} ∧
      ∃ t, out = t ++ [10] ∧ StmtT f.type (expr f.type (budget f.stmts)) 0 1 (itemsS f.type (expr f.type (budget f.stmts)) f.stmts {}) t) := by
  unfold format at h
  dsimp only at h
  by_cases hb : (file f {}).bad = true
  · rw [if_pos hb] at h; cases h
  rw [if_neg hb] at h
  injection h with h
  have hb' : (file f {}).bad = false := by simpa using hb
  by_cases hl : f.stmts = []
  · refine .inl ⟨hl, ?_⟩
    rw [← h]
    unfold file
    rw [hc, hl]
    rfl
  obtain ⟨ha, hn⟩ := statements_spec (ft := f.type) (prS hft (budget f.stmts)) (fun e o st => keep_expr f.type (budget f.stmts) e o st) hl hok hfo htt (st := {}) ⟨rfl, rfl⟩ rfl
  have hs0 : statements f.type (expr f.type (budget f.stmts)) f.stmts {} = stmtLoop f.type (expr f.type (budget f.stmts)) f.stmts {} := by
    unfold statements
    rw [List.filter_eq_self.2 (fun x hx => by simp [(hok x hx).isNil])]
  have hf0 : file f {} = newlineIfNeeded (statements f.type (expr f.type (budget f.stmts)) f.stmts {}) := by
    unfold file
    rw [hc]
    rfl
  have hf : file f {} = newline (statements f.type (expr f.type (budget f.stmts)) f.stmts {}) := by
    rw [hf0]
    unfold newlineIfNeeded
    rw [if_pos hn]
  refine .inr ⟨hl, by rw [← hs0, hf0], ?_⟩
  have hnl := ha.newline (fun s q => q.2.1)
  rw [← hf] at hnl
  obtain ⟨_, s, e1, t, e2, ht⟩ := hnl.2 hb'
  have hm : (statements f.type (expr f.type (budget f.stmts)) f.stmts {}).margin = 0 := by
    exact (keep_stmtLoop (ft := f.type) (pr := expr f.type (budget f.stmts)) (fun e o st => keep_expr f.type (budget f.stmts) e o st) _ {}).2
  refine ⟨t, ?_, ht⟩
  rw [← h, e1, e2, hm]
  show (List.reverse (t ++ [10]) ++ []).reverse = _
  simp

/-- the tokens of a printed file -/
theorem printed_tokens {ft : FileType} {pr : Pr} {its : List It} {out t : Bytes} (e : out = t ++ [10]) (h : StmtT ft pr 0 1 its t) :
    ∃ ts te as stf, tokens out = .ok (ts ++ [te]) stf ∧ (∃ n, absL te = (Round.W K.eof [], n)) ∧ ts.map absL = as ∧ StmtsG ft pr its as ∧ NC as ∧ stf.lineComments = [] ∧ stf.suffixComments = [] := by
  subst e
  obtain ⟨hs, _, ht⟩ := h
  obtain ⟨as, hl, he⟩ := ht 1
  obtain ⟨ts, st', h0, hln, h1, h2, h3, h4, h5, h6, h7, h8⟩ := hl (newInput (t ++ [10])) [] 0 (by simp [newInput, spaces, List.replicate]) rfl (.inl ⟨rfl, rfl⟩) rfl rfl (fun _ => rfl) (Nat.le_refl 0)
  exact ⟨ts, _, _, _, tokens_of (h8 _ _ (lexTo_end h1 (by unfold State.currentIndent; rw [h5]; rfl) h4)), ⟨_, rfl⟩, h0, he.stmts, he.1, h6, h7⟩

/-- **A printed file is read back, and printed as it was.** -/
theorem reads {f : File} {out : Bytes} (hft : f.type ≠ .module) (hc : f.comments = {}) (hok : ∀ s ∈ f.stmts, OkStmt s) (hfo : ∀ s ∈ f.stmts, Fo s) (htt : ∀ s ∈ f.stmts, tupleTight s = true)
    (h : format f = some out) : ∃ fuel f', Comm.parseFile fuel f.type out = some f' ∧ SameL f.stmts f'.stmts ∧ format f' = some out := by
  rcases format_spec hft hc hok hfo htt h with ⟨h1, rfl⟩ | ⟨hne, hfile0, t, e, ht⟩
  · have hp : Comm.parseFile 20 f.type [] = some { type := f.type, comments := {}, stmts := [] } := by
      cases f.type <;> rfl
    refine ⟨20, _, hp, by rw [h1]; exact .nil, ?_⟩
    cases f.type <;> rfl
  obtain ⟨ts, te, as, stf, htok, ⟨n0, hte⟩, hts, hg, hnc, hlc, hsc⟩ := printed_tokens e ht
  obtain ⟨cs, hcs, _⟩ := Props.Lexer.C48_tiles _ _ _ htok
  have hpos : ∀ t ∈ ts ++ [te], PosOK t := by
    refine tiled_pos hcs ?_
    obtain ⟨⟨x, r, rfl, hx⟩, _⟩ := ht
    subst e
    show some x ≠ some 58
    intro e
    injection e with e
    rw [e] at hx
    exact hx (by decide)
  have hfile := Gen.free (as := as ++ [(Round.W K.eof [], n0)]) (x := .n .file) (R := OL (RS f.type (expr f.type (budget f.stmts))) (itemsS f.type (expr f.type (budget f.stmts)) f.stmts {}))
    (Gen.prod2 Fm.file_1 (by decide) (stmts_any hg) (Gen.tok (Round.W K.eof [], n0)) (fun v1 v2 q1 _ => ⟨_, rfl, q1⟩))
    (hnc.app (by intro a ha; rw [List.mem_singleton.1 ha]; show K.eof ≠ K.comment; decide))
  obtain ⟨v, hv, hI, hfree⟩ := hfile (ts ++ [te]) (by rw [List.map_append, hts, List.map_cons, hte]; rfl) hpos
  obtain ⟨n, hn⟩ := C61_complete _ _ hv
  have hcnt := Props.Comments.parse_tokC (C61_refines hv) (fun a t u b e k => Props.Lexer.C47_block_start _ _ _ htok a t u b e k)
  have htc : Props.Comments.tokC (ts ++ [te]) = [] := by
    unfold Props.Comments.tokC
    rw [List.filterMap_eq_nil_iff]
    intro t ht
    rw [if_neg]
    intro hk
    rcases List.mem_append.1 ht with ht | ht
    · have hm : absL t ∈ as := by rw [← hts]; exact List.mem_map.2 ⟨t, ht, rfl⟩
      exact hnc _ hm hk
    · rw [List.mem_singleton.1 ht] at hk
      have : (absL te).1.kind = te.kind := rfl
      rw [hte] at this
      exact absurd (show K.eof = K.comment from this.trans hk) (by decide)
  have hassign := assign_id (l := v.exprs) (by
    have hp : List.Perm (Props.Comments.comL v.exprs) (Props.Comments.tokC (ts ++ [te])) := List.perm_iff_count.2 hcnt
    rw [htc] at hp
    exact hp.eq_nil)
  obtain ⟨b1, b2, b3, b4, b5, N, b6⟩ := stmtLoop_again hft hI hne (fun s hs => OkStmt.plain (hok s hs))
  refine ⟨n, { type := f.type, comments := {}, stmts := v.exprs }, ?_, b1, ?_⟩
  · unfold Comm.parseFile
    rw [htok]
    dsimp only
    rw [hn, hlc, hsc]
    dsimp only
    rw [hassign]
  · have hF : file { type := f.type, comments := {}, stmts := v.exprs } {} = file f {} := by
      rw [← hfile0]
      unfold file
      show newlineIfNeeded (statements f.type (expr f.type (budget v.exprs)) v.exprs {}) = _
      congr 1
      rw [a_statements (fuel_agree f.type (budget v.exprs) (budget v.exprs) (N + budget v.exprs) (Nat.le_refl _) (Nat.le_add_left _ _)) v.exprs {} (by unfold budget; omega)]
      unfold statements
      rw [List.filter_eq_self.2 (fun x hx => by simp [b2 x hx])]
      exact b6 _ (Nat.le_add_right _ _)
    unfold format at h ⊢
    rw [hF]
    exact h

end Verif.Again
