import Verif.Proofs.GenE
import Verif.Proofs.LexLine
/-
Derivations of statements.
-/
namespace Verif.Round
open Verif Verif.Syntax Verif.Lexer Verif.Print Verif.Parser Verif.Grammar Verif.Props.Grammar

/-! ## Statements without comments after them -/

mutual
/-- no statement in it has comments after it -/
def free : Expr → Bool
  | .defS c _ _ _ b _ _ _ _ => c.after.isEmpty && freeL b
  | .forS c _ _ _ b => c.after.isEmpty && freeL b
  | .ifS c _ _ t _ f => c.after.isEmpty && freeL t && freeL f
  | e => e.comments.after.isEmpty
def freeL : List Expr → Bool
  | [] => true
  | x :: l => free x && freeL l
end

def freeV (v : Val) : Prop := free v.expr = true ∧ freeL v.exprs = true

theorem freeL_append {l m : List Expr} (h : freeL l = true) (h' : freeL m = true) : freeL (l ++ m) = true := by
  induction l with
  | nil => exact h'
  | cons x l ih =>
    unfold freeL at h
    simp only [Bool.and_eq_true] at h
    show (free x && freeL (l ++ m)) = true
    rw [h.1, ih h.2]; rfl

theorem freeL_mem {l : List Expr} : freeL l = true ↔ ∀ x ∈ l, free x = true := by
  induction l with
  | nil => simp [freeL]
  | cons x l ih => simp [freeL, ih]

theorem free_comments {e : Expr} (h : free e = true) : e.comments.after = [] := by
  cases e <;> simp only [free, Bool.and_eq_true, List.isEmpty_iff] at h <;> first | exact h | exact h.1 | exact h.1.1

theorem free_set {e : Expr} {c : Comments} (h : free e = true) (hc : c.after = []) : free (e.setComments c) = true := by
  cases e <;> simp only [free, Bool.and_eq_true, List.isEmpty_iff, Expr.setComments, Expr.comments] at h ⊢ <;> first | exact hc | exact ⟨hc, h.2⟩ | exact ⟨⟨hc, h.1.2⟩, h.2⟩ | trivial

theorem free_setBefore {e : Expr} {c} (h : free e = true) : free (setBefore c e) = true := free_set h (free_comments h)
theorem free_setAfter {e : Expr} (h : free e = true) : free (setAfter [] e) = true := free_set h rfl

theorem extractLoop_free (i : Nat) : ∀ (l : List Expr) (b : Bool), freeL l = true → extractLoop i b l = (l, []) := by
  intro l
  induction l with
  | nil => intros; rfl
  | cons x l ih =>
    intro b h
    unfold freeL at h
    simp only [Bool.and_eq_true] at h
    unfold extractLoop
    rw [free_comments h.1, splitDedented, ih false h.2]

theorem splitAtLast_eq : ∀ (l a b : List Expr), splitAtLastStmt l = some (a, b) → l = a ++ b := by
  intro l
  induction l with
  | nil => intro a b h; cases h
  | cons x l ih =>
    intro a b h
    unfold splitAtLastStmt at h
    cases hs : splitAtLastStmt l with
    | some q =>
      rw [hs] at h
      obtain ⟨a', b'⟩ := q
      cases h
      rw [ih _ _ hs]; rfl
    | none =>
      rw [hs] at h
      dsimp only at h
      split at h
      · cases h
      · cases h; rfl

theorem extractBody_free {l : List Expr} (h : freeL l = true) : extractBody l = (l, []) := by
  cases l with
  | nil => rfl
  | cons x l =>
    unfold extractBody
    dsimp only
    cases hs : splitAtLastStmt (x :: l) with
    | none => rfl
    | some q =>
      obtain ⟨a, b⟩ := q
      have he := splitAtLast_eq _ _ _ hs
      dsimp only
      rw [he] at h
      rw [extractLoop_free _ b true (by rw [freeL_mem] at h ⊢; exact fun y hy => h y (List.mem_append_right _ hy))]
      dsimp only
      rw [← he]

theorem extractTrailing_free : ∀ (f : Nat) (e : Expr), free e = true → extractTrailing f e = (e, []) := by
  intro f
  induction f with
  | zero => intros; rfl
  | succ f ih =>
    intro e h
    cases e <;> first | rfl | skip
    case defS =>
      simp only [free, Bool.and_eq_true] at h
      unfold extractTrailing
      dsimp only
      rw [extractBody_free h.2]
    case forS =>
      simp only [free, Bool.and_eq_true] at h
      unfold extractTrailing
      dsimp only
      rw [extractBody_free h.2]
    case ifS c p x t ep fa =>
      simp only [free, Bool.and_eq_true] at h
      unfold extractTrailing
      dsimp only
      split
      · rw [extractBody_free h.1.2]
      · have := h.2
        unfold freeL at this
        simp only [Bool.and_eq_true] at this
        rw [ih _ this.1]
      · rw [extractBody_free h.2]

theorem freeL_modLast {f : Expr → Expr} (hf : ∀ e, free e = true → free (f e) = true) : ∀ (l : List Expr), freeL l = true → freeL (modLast f l) = true := by
  intro l
  induction l with
  | nil => intros; rfl
  | cons x l ih =>
    intro h
    unfold freeL at h
    simp only [Bool.and_eq_true] at h
    cases l with
    | nil => simp [modLast, freeL, hf x h.1]
    | cons y l => simp only [modLast, freeL, h.1, Bool.true_and]; exact ih h.2

theorem freeL_modHead {f : Expr → Expr} (hf : ∀ e, free e = true → free (f e) = true) (l : List Expr) (h : freeL l = true) : freeL (modHead f l) = true := by
  cases l with
  | nil => rfl
  | cons x l =>
    unfold freeL at h
    simp only [Bool.and_eq_true] at h
    simp [modHead, freeL, hf x h.1, h.2]

theorem freeL_dropLast (l : List Expr) (h : freeL l = true) : freeL l.dropLast = true := by
  rw [freeL_mem] at h ⊢
  exact fun x hx => h x (List.dropLast_subset _ hx)

theorem free_addStmt {v1 v2 : Val} (h1 : freeV v1) (h2 : freeV v2) : freeV (addStmt v1 v2) := by
  unfold addStmt
  split
  · split
    · exact ⟨h1.1, freeL_append h1.2 h2.2⟩
    · split
      · exact ⟨h1.1, freeL_append (freeL_dropLast _ h1.2) (freeL_modHead (fun _ h => free_setBefore h) _ h2.2)⟩
      · exact ⟨h1.1, freeL_append (freeL_modLast (fun _ h => free_setAfter h) _ h1.2) (freeL_modHead (fun _ h => free_setBefore h) _ h2.2)⟩
  · exact ⟨h1.1, freeL_append h1.2 h2.2⟩

theorem free_mkSuite {v1 v2 v4 v : Val} (h1 : freeV v1) (h2 : freeV v2) (h4 : freeV v4) (h : mkSuite v1 v2 v4 = some v) : freeV v := by
  unfold mkSuite at h
  split at h
  · cases h; exact ⟨h1.1, h4.2⟩
  · split at h
    · rename_i s l c hs hc
      have hsl : freeL (s :: l) = true := by rw [← hs]; exact h4.2
      unfold freeL at hsl
      simp only [Bool.and_eq_true] at hsl
      split at h
      · cases h
        refine ⟨h1.1, freeL_append (freeL_dropLast _ h2.2) ?_⟩
        simp [freeL, free_setBefore hsl.1, hsl.2]
      · cases h; exact ⟨h1.1, freeL_append h2.2 h4.2⟩
    · cases h

theorem free_setElse : ∀ (f : Nat) (p : Pos) (new : List Expr) (e e' : Expr), freeL new = true → free e = true → setElse f p new e = some e' → free e' = true := by
  intro f
  induction f with
  | zero => intro p new e e' _ _ h; cases h
  | succ f ih =>
    intro p new e e' hn he h
    cases e <;> first | (cases h; done) | skip
    case ifS c ip co t ep fa =>
      simp only [free, Bool.and_eq_true] at he
      unfold setElse at h
      split at h
      · rename_i x
        cases hs : setElse f p new x with
        | none => rw [hs] at h; cases h
        | some x' =>
          rw [hs] at h
          cases h
          have hx := he.2
          unfold freeL at hx
          simp only [Bool.and_eq_true] at hx
          simp only [free, freeL, he.1.1, he.1.2, ih _ _ _ _ hn hx.1 hs, Bool.and_self]
      · cases h
        simp only [free, he.1.1, he.1.2, hn, Bool.and_self]

theorem free_mkBinary {x p op y} : free (mkBinary x p op y) = true := by
  unfold mkBinary
  dsimp only
  split <;> rfl

theorem free_mkTyped {x y} : free (mkTyped x y) = true := by
  unfold mkTyped
  split <;> rfl

theorem free_tupleAppend {x y} (h : free x = true) : free (tupleAppend x y) = true := by
  unfold tupleAppend
  split
  · exact h
  · rfl

theorem freeL_one {x} (h : free x = true) : freeL [x] = true := by simp [freeL, h]

theorem free_semStmt {r : Nat} {a1 a2 a3 a4 a5 a6 v : Val} (hr : r ≠ 7 ∧ r ≠ 12) (h1 : freeV a1) (h2 : freeV a2) (h3 : freeV a3) (h4 : freeV a4) (h5 : freeV a5) (h6 : freeV a6)
    (h : semStmt r a1 a2 a3 a4 a5 a6 = some v) : freeV v := by
  unfold semStmt at h
  split at h
  · cases h; exact h1
  · exact free_mkSuite h1 h2 h4 h
  · exact absurd rfl hr.1
  · cases h; exact h1
  · cases h; exact free_addStmt h1 h2
  · cases h; exact h1
  · exact absurd rfl hr.2
  · cases h; exact h1
  · rw [extractTrailing_free _ _ h1.1] at h
    cases h
    exact ⟨h1.1, freeL_one h1.1⟩
  · cases h; exact ⟨rfl, h1.2⟩
  · split at h
    · rename_i he
      cases h
      have hx := h1.1
      rw [he] at hx
      simp only [free, Bool.and_eq_true] at hx
      refine ⟨?_, h1.2⟩
      simp only [free, Bool.and_eq_true]; exact hx
    · cases h
  · split at h
    · rename_i he
      cases h
      have hx := h1.1
      rw [he] at hx
      simp only [free, Bool.and_eq_true] at hx
      refine ⟨?_, h1.2⟩
      simp only [free, Bool.and_eq_true]; exact ⟨hx.1, h3.2⟩
    · cases h
  · cases h; exact ⟨by simp [free, h6.2], h1.2⟩
  · cases h; exact ⟨by simp [free, h4.2, freeL], h1.2⟩
  · rw [Option.map_eq_some_iff] at h
    obtain ⟨e, he, rfl⟩ := h
    exact ⟨free_setElse _ _ _ _ _ (by simp [freeL, free, h5.2]) h1.1 he, h1.2⟩
  · rw [Option.map_eq_some_iff] at h
    obtain ⟨e, he, rfl⟩ := h
    exact ⟨free_setElse _ _ _ _ _ h4.2 h1.1 he, h1.2⟩
  · cases h; exact ⟨h1.1, by simp [freeL, h1.1, h2.2]⟩
  · cases h; exact ⟨h1.1, freeL_append h1.2 (freeL_one h3.1)⟩
  · cases h; exact ⟨rfl, h1.2⟩
  · cases h; exact ⟨rfl, h1.2⟩
  · cases h; exact ⟨free_mkBinary, h1.2⟩
  · cases h; exact ⟨free_mkBinary, h1.2⟩
  · cases h; exact ⟨rfl, h1.2⟩
  · cases h; exact ⟨rfl, h1.2⟩
  · cases h; exact ⟨rfl, h1.2⟩
  · cases h; exact h1

theorem free_semPrimary {r : Nat} {a1 a2 a3 a4 a5 a6 a7 a8 v : Val} (h1 : freeV a1) (h2 : freeV a2) (h3 : freeV a3)
    (h : semPrimary r a1 a2 a3 a4 a5 a6 a7 a8 = some v) : freeV v := by
  unfold semPrimary at h
  split at h
  iterate 11 (cases h; exact ⟨rfl, h1.2⟩)
  · split at h
    · split at h <;> (cases h; exact ⟨rfl, h1.2⟩)
    · cases h; exact ⟨rfl, h1.2⟩
  · cases h; exact ⟨h1.1, rfl⟩
  · cases h; exact h1
  · cases h; exact ⟨h1.1, freeL_one h2.1⟩
  · cases h; exact ⟨h1.1, freeL_append h1.2 (freeL_one h3.1)⟩
  · cases h; exact ⟨free_mkBinary, h1.2⟩
  · cases h; exact ⟨rfl, h1.2⟩
  · cases h; exact ⟨rfl, h1.2⟩
  · cases h; exact h1

theorem free_semParam {r : Nat} {a1 a2 a3 a4 a5 v : Val} (h1 : freeV a1) (h3 : freeV a3)
    (h : semParam r a1 a2 a3 a4 a5 = some v) : freeV v := by
  unfold semParam at h
  split at h
  · cases h; exact h1
  · cases h; exact h1
  · cases h; exact h1
  · cases h; exact h1
  · cases h; exact ⟨h1.1, rfl⟩
  · cases h; exact ⟨h1.1, rfl⟩
  · cases h; exact ⟨h1.1, freeL_one h1.1⟩
  · cases h; exact ⟨h1.1, freeL_append h1.2 (freeL_one h3.1)⟩
  · cases h; exact ⟨h1.1, freeL_one h1.1⟩
  · cases h; exact ⟨h1.1, freeL_append h1.2 (freeL_one h3.1)⟩
  · cases h; exact ⟨free_mkBinary, h1.2⟩
  · cases h; exact ⟨rfl, h1.2⟩
  · cases h; exact ⟨rfl, h1.2⟩
  · cases h; exact ⟨rfl, h1.2⟩
  · cases h; exact ⟨free_mkTyped, h1.2⟩
  · cases h; exact ⟨free_mkBinary, h1.2⟩
  · cases h; exact ⟨rfl, h1.2⟩
  · cases h; exact ⟨rfl, h1.2⟩
  · cases h; exact ⟨free_tupleAppend h1.1, h1.2⟩
  · cases h; exact ⟨rfl, h1.2⟩
  · cases h; exact h1

theorem free_semTest {r : Nat} {a1 a2 a3 a4 a5 v : Val} (h1 : freeV a1)
    (h : semTest r a1 a2 a3 a4 a5 = some v) : freeV v := by
  unfold semTest at h
  split at h
  · cases h; exact h1
  · split at h
    · cases h; exact ⟨rfl, h1.2⟩
    · split at h
      · cases h; exact ⟨rfl, h1.2⟩
      · split at h
        · cases h; exact ⟨by dsimp only; exact free_mkBinary, h1.2⟩
        · split at h
          · split at h
            · split at h <;> (cases h; exact ⟨by dsimp only; exact free_mkBinary, h1.2⟩)
            · cases h; exact ⟨by dsimp only; exact free_mkBinary, h1.2⟩
          · split at h
            · cases h; exact ⟨rfl, h1.2⟩
            · cases h; exact ⟨by dsimp only; exact free_mkBinary, h1.2⟩

theorem free_semList {r : Nat} {a1 a2 a3 a4 v : Val} (h1 : freeV a1) (h2 : freeV a2) (h3 : freeV a3)
    (h : semList r a1 a2 a3 a4 = some v) : freeV v := by
  unfold semList at h
  split at h
  · cases h; exact ⟨h1.1, freeL_one h1.1⟩
  · cases h; exact ⟨h1.1, freeL_append h1.2 (freeL_one h3.1)⟩
  · cases h; exact ⟨rfl, h1.2⟩
  · cases h; exact ⟨h1.1, rfl⟩
  · cases h; exact h1
  · cases h; exact h1
  · cases h; exact h1
  · cases h; exact ⟨rfl, h1.2⟩
  · cases h; exact ⟨h1.1, freeL_one h1.1⟩
  · cases h; exact ⟨h1.1, freeL_append h1.2 (freeL_one h3.1)⟩
  · cases h; exact ⟨h1.1, rfl⟩
  · cases h; exact ⟨free_tupleAppend h1.1, h1.2⟩
  · cases h; exact ⟨rfl, h1.2⟩
  · cases h; exact ⟨rfl, h1.2⟩
  · cases h; exact ⟨rfl, h1.2⟩
  · cases h; exact ⟨rfl, h1.2⟩
  · cases h; exact ⟨rfl, h1.2⟩
  · cases h; exact ⟨rfl, h1.2⟩
  · cases h; exact ⟨rfl, h1.2⟩
  · cases h; exact ⟨h1.1, freeL_one h1.1⟩
  · cases h; exact ⟨h1.1, freeL_append h1.2 (freeL_one rfl)⟩
  · cases h; exact ⟨h1.1, freeL_append h1.2 h2.2⟩
  · cases h; exact h1

theorem free_sem {r : Nat} {vs : List Val} {v : Val} (hr : r ≠ 7 ∧ r ≠ 12) (hv : ∀ x ∈ vs, freeV x) (h : sem r vs = some v) : freeV v := by
  have hg : ∀ i, freeV (vs.getD i {}) := by
    intro i
    rw [List.getD_eq_getElem?_getD]
    cases hi : vs[i]? with
    | none => exact ⟨rfl, rfl⟩
    | some x => exact hv x (List.mem_of_getElem? hi)
  unfold sem at h
  dsimp only at h
  split at h
  · exact free_semStmt hr (hg 0) (hg 1) (hg 2) (hg 3) (hg 4) (hg 5) h
  · split at h
    · exact free_semPrimary (hg 0) (hg 1) (hg 2) h
    · split at h
      · exact free_semParam (hg 0) (hg 2) h
      · split at h
        · exact free_semTest (hg 0) h
        · exact free_semList (hg 0) (hg 1) (hg 2) h

theorem fine_comment : ∀ p ∈ fine, p.2.1 = 7 ∨ p.2.1 = 12 → FSym.t K.comment ∈ p.2.2 := by decide +kernel

theorem derivL_tok {xs : List FSym} {ts : List Tok} {vs : List Val} (h : FDerivL xs ts vs) {k : Kind} (hk : FSym.t k ∈ xs) : ∃ t ∈ ts, t.kind = k := by
  induction xs generalizing ts vs with
  | nil => cases hk
  | cons x xs ih =>
    cases h with
    | cons _ _ t1 t2 v vs h1 h2 =>
      rcases List.mem_cons.1 hk with rfl | hk
      · cases h1 with
        | tok t => exact ⟨t, by simp, rfl⟩
      · obtain ⟨t, ht, e⟩ := ih h2 hk
        exact ⟨t, List.mem_append_right _ ht, e⟩

theorem free_deriv {x : FSym} {ts : List Tok} {v : Val} (h : FDeriv x ts v) : (∀ t ∈ ts, t.kind ≠ K.comment) → freeV v := by
  refine FDeriv.rec (motive_1 := fun x ts v _ => (∀ t ∈ ts, t.kind ≠ K.comment) → freeV v)
    (motive_2 := fun xs ts vs _ => (∀ t ∈ ts, t.kind ≠ K.comment) → ∀ v ∈ vs, freeV v) ?_ ?_ ?_ ?_ ?_ h
  · intro t _; exact ⟨rfl, rfl⟩
  · intro a r rhs ts vs v hm hr hd hs ih hn
    refine free_sem ?_ (ih hn) hs
    have key : ∀ q, r = q → (q = 7 ∨ q = 12) → False := by
      rintro q rfl hq
      obtain ⟨t, ht, e⟩ := derivL_tok hd (fine_comment _ hm hq)
      exact hn t ht e
    exact ⟨fun e => key 7 e (.inl rfl), fun e => key 12 e (.inr rfl)⟩
  · intro a b ts v _ _ ih hn; exact ih hn
  · intro _ v hv; cases hv
  · intro x xs ts ts' v vs _ _ ih1 ih2 hn w hw
    rcases List.mem_cons.1 hw with rfl | hw
    · exact ih1 (fun t ht => hn t (List.mem_append_left _ ht))
    · exact ih2 (fun t ht => hn t (List.mem_append_right _ ht)) w hw

/-- no comments -/
def NC (as : List ATok) : Prop := ∀ a ∈ as, a.kind ≠ K.comment

theorem NC.app {a b : List ATok} (h1 : NC a) (h2 : NC b) : NC (a ++ b) := by
  intro x hx
  rcases List.mem_append.1 hx with h | h
  · exact h1 x h
  · exact h2 x h

theorem Gen.free {as x R} (h : Gen as x R) (hn : NC as) : Gen as x (fun v => R v ∧ freeV v) := by
  intro ts h1 h2
  obtain ⟨v, d, q⟩ := h ts h1 h2
  refine ⟨v, d, q, free_deriv d (fun t ht => ?_)⟩
  have : abs t ∈ as := by rw [← h1]; exact List.mem_map_of_mem ht
  exact hn _ this

/-! ## Same and comments -/

theorem same_set {e e' : Expr} (h : Same e e') (c : Comments) : Same e (e'.setComments c) := by
  cases h
  case paren h => exact .paren _ _ _ _ _ _ _ _ _ _ h
  all_goals ((try unfold Expr.setComments) <;> constructor <;> assumption)

theorem same_block {e e' : Expr} (h : Same e e') : isCommentBlock e' = false := by cases h <;> rfl

theorem SameL.set_modLast {f : Expr → Expr} (hf : ∀ e e', Same e e' → Same e (f e')) : ∀ {l l' : List Expr}, SameL l l' → SameL l (modLast f l') := by
  intro l l' h
  induction l generalizing l' with
  | nil => cases h; exact .nil
  | cons x l ih =>
    cases h with
    | cons _ x' _ l' hx hl =>
      cases l' with
      | nil => exact .cons _ _ _ _ (hf _ _ hx) hl
      | cons y l' => exact .cons _ _ _ _ hx (ih hl)

theorem SameL.getLast {l l' : List Expr} (h : SameL l l') {x : Expr} (hx : l'.getLast? = some x) : isCommentBlock x = false := by
  have key : ∀ (l l' : List Expr), SameL l l' → ∀ x ∈ l', isCommentBlock x = false := by
    intro l
    induction l with
    | nil => intro l' h x hx; cases h; cases hx
    | cons y l ih =>
      intro l' h x hx
      cases h with
      | cons _ y' _ l' hy hl =>
        rcases List.mem_cons.1 hx with rfl | hx
        · exact same_block hy
        · exact ih _ hl x hx
  exact key l l' h x (List.mem_of_getLast? hx)

theorem addStmt_same {l : List Expr} {s s' : Expr} {v1 v2 : Val} (h1 : SL l v1) (h2 : v2.exprs = [s']) (hs : Same s s') : SL (l ++ [s]) (addStmt v1 v2) := by
  unfold addStmt
  rw [h2]
  split
  · split
    · exact SameL.snoc h1 hs
    · rename_i x hx
      rw [if_neg (by rw [SameL.getLast h1 hx]; decide)]
      exact SameL.snoc (SameL.set_modLast (fun _ _ h => same_set h _) h1) (same_set hs _)
  · exact SameL.snoc h1 hs

/-! ## Statements -/

/-- a list of statements -/
abbrev StmtsG (l : List Expr) (as : List ATok) : Prop := Gen as (.n (.stmts false)) (SL l)

theorem g_stmts0 : StmtsG [] [] := Gen.prod0 Fm.stmtsfalse_9 (by decide) ⟨_, rfl, .nil⟩

/-- the tokens of a statement extend any list of statements -/
def Ext (ss : List Expr) (as : List ATok) : Prop := NC as ∧ ∀ l acc, StmtsG l acc → StmtsG (l ++ ss) (acc ++ as)

theorem Ext.nil : Ext [] [] := ⟨(fun _ h => by cases h), fun l acc h => by simpa using h⟩

theorem Ext.app {s1 s2 a1 a2} (h1 : Ext s1 a1) (h2 : Ext s2 a2) : Ext (s1 ++ s2) (a1 ++ a2) :=
  ⟨h1.1.app h2.1, fun l acc h => by rw [← List.append_assoc, ← List.append_assoc]; exact h2.2 _ _ (h1.2 _ _ h)⟩

theorem Ext.stmts {l as} (h : Ext l as) : StmtsG l as := h.2 [] [] g_stmts0

theorem nc_nl (n : Nat) : NC (List.replicate n NL) := by
  intro a ha
  rw [List.eq_of_mem_replicate ha]
  decide

theorem stmts_any {as R} (h : Gen as (.n (.stmts false)) R) : Gen as (.n .anyStmts) R := Gen.incl Fm.anyStmts_0 h

theorem g_nl {l acc} (n : Nat) (h : StmtsG l acc) : StmtsG l (acc ++ List.replicate n NL) := by
  induction n with
  | zero => simpa using h
  | succ n ih =>
    rw [List.replicate_succ', ← List.append_assoc]
    exact Gen.prod2 Fm.stmtsfalse_11 (by decide) ih (gtok K.newline [10]) (fun v1 v2 q _ => ⟨_, rfl, q⟩)

theorem Ext.nl {s as} (n : Nat) (h : Ext s as) : Ext s (as ++ List.replicate n NL) :=
  ⟨h.1.app (nc_nl n), fun l acc hl => by rw [← List.append_assoc]; exact g_nl n (h.2 l acc hl)⟩

/-- a simple statement and its line end -/
theorem ext_simple {s as} (h : Gen as (.n .smallStmt) (SE s)) (hn : NC as) (n : Nat) : Ext [s] (as ++ List.replicate (n + 1) NL) := by
  have h1 : Gen (as ++ [NL]) (.n .simpleStmt) (fun v => ∃ e, v.exprs = [e] ∧ Same s e) := by
    have := Gen.prod4 (R := fun v => ∃ e, v.exprs = [e] ∧ Same s e) Fm.simpleStmt_27 (by decide) h
      (Gen.prod0 (R := fun v => v.exprs = []) Fm.smallStmtsContinuation_28 (by decide) ⟨_, rfl, rfl⟩)
      (Gen.prod0 (R := fun _ => True) Fm.semiOpt_38 (by decide) ⟨_, rfl, trivial⟩) (gtok K.newline [10])
      (fun v1 v2 v3 v4 q1 q2 _ _ => ⟨_, rfl, v1.expr, by show v1.expr :: v2.exprs = _; rw [q2], q1⟩)
    exact this
  have h2 : Gen (as ++ [NL]) (.n (.stmt false)) (fun v => ∃ e, v.exprs = [e] ∧ Same s e) :=
    Gen.prod1 Fm.stmtfalse_13 (by decide) h1 (fun v q => ⟨_, rfl, q⟩)
  have h3 : Ext [s] (as ++ [NL]) := by
    refine ⟨hn.app (nc_nl 1), fun l acc hl => ?_⟩
    exact Gen.prod2 Fm.stmtsfalse_10 (by decide) (stmts_any hl) h2 (fun v1 v2 q1 ⟨e, q2, q3⟩ => ⟨_, rfl, addStmt_same q1 q2 q3⟩)
  have h4 := h3.nl n
  rw [List.append_assoc] at h4
  exact h4

/-- a statement with a block -/
theorem ext_block {s as} (h : Gen as (.n (.blockStmt false)) (SE s)) (hn : NC as) : Ext [s] as := by
  refine ⟨hn, fun l acc hl => ?_⟩
  have h2 : Gen as (.n (.stmt false)) (fun v => ∃ e, v.exprs = [e] ∧ Same s e) := by
    refine Gen.prod1 Fm.stmtfalse_14 (by decide) (h.free hn) (fun v q => ?_)
    refine ⟨{ v with exprs := [v.expr], last := true || v.last }, ?_, v.expr, rfl, q.1⟩
    show (let (s, cbs) := extractTrailing (chainLength v.expr) v.expr
      some { v with exprs := s :: cbs, last := cbs.isEmpty || v.last }) = _
    rw [extractTrailing_free _ _ q.2.1]
    rfl
  exact Gen.prod2 Fm.stmtsfalse_10 (by decide) (stmts_any hl) h2 (fun v1 v2 q1 ⟨e, q2, q3⟩ => ⟨_, rfl, addStmt_same q1 q2 q3⟩)

/-- an indented block -/
theorem g_suite {l as} (h : StmtsG l as) : Gen (NL :: IND :: (as ++ [UNIND])) (.n (.suite false)) (SL l) := by
  have := Gen.prod5 (R := SL l) Fm.suitefalse_2 (by decide) (gtok K.newline [10]) (Gen.prod0 (R := fun v => v.exprs = []) Fm.comments_6 (by decide) ⟨_, rfl, rfl⟩)
    (gtok K.indent []) (stmts_any h) (gtok K.unindent [])
    (fun v1 v2 v3 v4 v5 _ q2 _ q4 _ => ⟨{ v1 with exprs := v4.exprs, last := v4.last }, by
      show mkSuite v1 v2 v4 = _
      unfold mkSuite
      rw [q2]; rfl, q4⟩)
  exact this

theorem nc_suite {as : List ATok} (h : NC as) : NC (NL :: IND :: (as ++ [UNIND])) := by
  intro a ha
  simp only [List.mem_cons, List.mem_append, List.not_mem_nil, or_false] at ha
  rcases ha with rfl | rfl | ha | rfl
  · decide
  · decide
  · exact h a ha
  · decide

theorem g_for {c p v x body as1 as2 as3} (h1 : Gen as1 (.n .loopVars) (SE v)) (h2 : Gen as2 (.n .expr) (SE x)) (h3 : StmtsG body as3) :
    Gen (W K.for_ b!"for" :: (as1 ++ (W K.in_ b!"in" :: (as2 ++ (W 58 b!":" :: (NL :: IND :: (as3 ++ [UNIND]))))))) (.n (.blockStmt false)) (SE (.forS c p v x body)) :=
  Gen.prod6 (R := SE (.forS c p v x body)) Fm.blockStmtfalse_19 (by decide) (gtok K.for_ b!"for") h1 (gtok K.in_ b!"in") h2 (gtok 58 b!":") (g_suite h3)
    (fun v1 v2 v3 v4 v5 v6 _ q2 _ q4 _ q6 => ⟨_, rfl, .forS _ _ _ _ _ _ _ _ _ _ q2 q4 q6⟩)

/-- a function header -/
def SDef (name : Bytes) (ps : List Expr) (ty : Expr) (v : Val) : Prop :=
  ∃ c p ps' b cp fc fm ty', v.expr = .defS c p name ps' b cp fc fm ty' ∧ SameL ps ps' ∧ Same ty ty'

theorem g_params {m l as} (h : SeqAll ((fun x as => Gen as (.n .parameterType) (SE x)) ) m l as) (hm : m = .def_) : Gen as (.n .parametersTypeOpt) (SL l) := by
  obtain ⟨ass, tc, h1, rfl, h2, h3, h4⟩ := h
  obtain rfl := h3 (.inr hm)
  by_cases hl : l = []
  · subst hl
    cases h1
    exact Gen.prod0 Fm.parametersTypeOpt_69 (by decide) ⟨_, rfl, .nil⟩
  · have := Gen.prod2 (R := SL l) Fm.parametersTypeOpt_70 (by decide) (l_paramsT.join h1 hl) (g_commaOpt false) (fun v1 v2 q _ => ⟨_, rfl, q⟩)
    exact this

theorem g_header {name ps as} (h : SeqAll (fun x as => Gen as (.n .parameterType) (SE x)) .def_ ps as) :
    Gen (W K.def_ b!"def" :: (W K.ident name :: (W 40 b!"(" :: (as ++ [W 41 b!")"])))) (.n .defHeader) (SDef name ps .nil) :=
  Gen.prod5 (R := SDef name ps .nil) Fm.defHeader_15 (by decide) (gtok K.def_ b!"def") (gtok K.ident name) (gtok 40 b!"(") (g_params h rfl) (gtok 41 b!")")
    (fun v1 v2 v3 v4 v5 _ q2 _ q4 _ => by
      have e : v2.tok = name := q2.tok
      subst e
      exact ⟨_, rfl, _, _, _, _, _, _, _, _, rfl, q4, .nil⟩)

theorem g_headerType0 {name ps as} (h : Gen as (.n .defHeader) (SDef name ps .nil)) : Gen as (.n .defHeaderTypeOpt) (SDef name ps .nil) :=
  Gen.prod1 Fm.defHeaderTypeOpt_16 (by decide) h (fun v q => ⟨_, rfl, q⟩)

theorem g_headerType1 {name ps as ty as2} (h : Gen as (.n .defHeader) (SDef name ps .nil)) (h2 : Gen as2 (.n (.any 2)) (SE ty)) :
    Gen (as ++ (W K.arrow b!"->" :: as2)) (.n .defHeaderTypeOpt) (SDef name ps ty) :=
  Gen.prod3 (R := SDef name ps ty) Fm.defHeaderTypeOpt_17 (by decide) h (gtok K.arrow b!"->") h2
    (fun v1 v2 v3 q1 _ q3 => by
      obtain ⟨c, p, ps', b, cp, fc, fm, ty', e, h1, h2⟩ := q1
      refine ⟨{ v1 with expr := .defS c p name ps' b cp fc fm v3.expr }, ?_, _, _, _, _, _, _, _, _, rfl, h1, q3⟩
      show (match v1.expr with
        | .defS c sp n ps b cp fc fm _ => some { v1 with expr := .defS c sp n ps b cp fc fm v3.expr }
        | _ => none) = _
      rw [e])

theorem g_def {c p name ps body cp fc fm ty as as2} (h : Gen as (.n .defHeaderTypeOpt) (SDef name ps ty)) (h2 : StmtsG body as2) :
    Gen (as ++ (W 58 b!":" :: (NL :: IND :: (as2 ++ [UNIND])))) (.n (.blockStmt false)) (SE (.defS c p name ps body cp fc fm ty)) :=
  Gen.prod3 (R := SE (.defS c p name ps body cp fc fm ty)) Fm.blockStmtfalse_18 (by decide) h (gtok 58 b!":") (g_suite h2)
    (fun v1 v2 v3 q1 _ q3 => by
      obtain ⟨c, p, ps', b, cp, fc, fm, ty', e, h1, h2⟩ := q1
      refine ⟨{ v1 with expr := .defS c p name ps' v3.exprs v2.pos fc fm ty', last := v3.last }, ?_, .defS _ _ _ _ _ _ _ _ _ _ _ _ _ _ _ _ _ h1 q3 h2⟩
      show (match v1.expr with
        | .defS c sp n ps _ _ fc fm t => some { v1 with expr := .defS c sp n ps v3.exprs v2.pos fc fm t, last := v3.last }
        | _ => none) = _
      rw [e])

/-! ## Chains of `if` and `elif` -/

/-- the branches of a chain and the block after the last `else` -/
inductive VC : List (Expr × List Expr) → List Expr → Expr → Prop
  | one (x t els c p x' t' ep els') : Same x x' → SameL t t' → SameL els els' → VC [(x, t)] els (.ifS c p x' t' ep els')
  | cons (x t q l els c p x' t' ep e) : Same x x' → SameL t t' → VC (q :: l) els e → VC ((x, t) :: q :: l) els (.ifS c p x' t' ep [e])

/-- `Pre l e w`: `w` is a chain with the branches `l` and then `e` -/
inductive Pre : List (Expr × List Expr) → Expr → Expr → Prop
  | nil (e) : Pre [] e e
  | cons (x t l e w c p ep) : Pre l e w → Pre ((x, t) :: l) e (.ifS c p x t ep [w])

theorem Pre.snoc {l c p x t ep e w} (h : Pre l (.ifS c p x t ep [e]) w) : Pre (l ++ [(x, t)]) e w := by
  induction l generalizing w with
  | nil => cases h; exact .cons _ _ _ _ _ _ _ _ (.nil _)
  | cons q l ih =>
    cases h with
    | cons _ _ _ _ w c p ep h => exact .cons _ _ _ _ _ _ _ _ (ih h)

theorem VC.same {l x t els v c p ep w} (h : VC (l ++ [(x, t)]) els v) (hp : Pre l (.ifS c p x t ep els) w) : Same w v := by
  induction l generalizing v w with
  | nil =>
    cases hp
    cases h with
    | one _ _ _ _ _ _ _ _ _ h1 h2 h3 => exact .ifS _ _ _ _ _ _ _ _ _ _ _ _ h1 h2 h3
  | cons q l ih =>
    cases hp with
    | cons x0 t0 _ _ w c p ep hp =>
      generalize hm : l ++ [(x, t)] = m at h
      rw [List.cons_append, hm] at h
      cases h with
      | one => simp at hm
      | cons _ _ q' l' _ _ _ _ _ _ e h1 h2 h3 => exact .ifS _ _ _ _ _ _ _ _ _ _ _ _ h1 h2 (.cons _ _ _ _ (ih (hm ▸ h3) hp) .nil)

theorem vc_setElse {l v} (h : VC l [] v) : ∀ (p : Pos) (new : List Expr), ∃ e, setElse (chainLength v) p new v = some e ∧
    (∀ els, SameL els new → VC l els e) ∧ (∀ x t c q x' t' ep, new = [.ifS c q x' t' ep []] → Same x x' → SameL t t' → VC (l ++ [(x, t)]) [] e) := by
  generalize hels : ([] : List Expr) = els0 at h
  induction h with
  | one x t els c p x' t' ep els' h1 h2 h3 =>
    intro p' new
    subst hels
    cases h3
    refine ⟨.ifS c p x' t' ⟨{}, p'⟩ new, rfl, fun els hl => .one _ _ _ _ _ _ _ _ _ h1 h2 hl, ?_⟩
    rintro x2 t2 c2 q x2' t2' ep2 rfl hx ht
    exact .cons _ _ _ _ _ _ _ _ _ _ _ h1 h2 (.one _ _ _ _ _ _ _ _ _ hx ht .nil)
  | cons x t q l els c p x' t' ep e h1 h2 h3 ih =>
    intro p' new
    obtain ⟨e', he, hA, hB⟩ := ih hels p' new
    refine ⟨.ifS c p x' t' ep [e'], ?_, fun els hl => .cons _ _ _ _ _ _ _ _ _ _ _ h1 h2 (hA els hl), ?_⟩
    · show ((setElse (chainLength e) p' new e).map fun x'' => Expr.ifS c p x' t' ep [x'']) = _
      rw [he]; rfl
    · intro x2 t2 c2 q2 x2' t2' ep2 hn hx ht
      exact .cons _ _ _ _ _ _ _ _ _ _ _ h1 h2 (hB x2 t2 c2 q2 x2' t2' ep2 hn hx ht)

def VCv (l : List (Expr × List Expr)) (els : List Expr) (v : Val) : Prop := VC l els v.expr

theorem chain_any {as R} (h : Gen as (.n (.ifChain false)) R) : Gen as (.n .anyIfChain) R := Gen.incl Fm.anyIfChain_0 h

theorem g_if {x t as1 as2} (h1 : Gen as1 (.n .expr) (SE x)) (h2 : StmtsG t as2) :
    Gen (W K.if_ b!"if" :: (as1 ++ (W 58 b!":" :: (NL :: IND :: (as2 ++ [UNIND]))))) (.n (.ifChain false)) (VCv [(x, t)] []) :=
  Gen.prod4 (R := VCv [(x, t)] []) Fm.ifChainfalse_21 (by decide) (gtok K.if_ b!"if") h1 (gtok 58 b!":") (g_suite h2)
    (fun v1 v2 v3 v4 _ q2 _ q4 => ⟨_, rfl, .one _ _ _ _ _ _ _ _ _ q2 q4 .nil⟩)

theorem g_elif {x t l as as1 as2} (h : Gen as (.n (.ifChain false)) (VCv l [])) (h1 : Gen as1 (.n .expr) (SE x)) (h2 : StmtsG t as2) :
    Gen (as ++ (W K.elif b!"elif" :: (as1 ++ (W 58 b!":" :: (NL :: IND :: (as2 ++ [UNIND])))))) (.n (.ifChain false)) (VCv (l ++ [(x, t)]) []) :=
  Gen.prod5 (R := VCv (l ++ [(x, t)]) []) Fm.ifChainfalse_22 (by decide) (chain_any h)
    (Gen.prod1 (R := fun _ => True) Fm.elif_26 (by decide) (gtok K.elif b!"elif") (fun v _ => ⟨_, rfl, trivial⟩)) h1 (gtok 58 b!":") (g_suite h2)
    (fun v1 v2 v3 v4 v5 q1 _ q3 _ q5 => by
      obtain ⟨e, he, _, hB⟩ := vc_setElse q1 v2.pos [.ifS {} v2.pos v3.expr v5.exprs {} []]
      refine ⟨{ v1 with expr := e, last := v5.last }, ?_, hB _ _ _ _ _ _ _ rfl q3 q5⟩
      show (setElse (chainLength v1.expr) v2.pos [.ifS {} v2.pos v3.expr v5.exprs {} []] v1.expr).map _ = _
      rw [he]; rfl)

theorem g_noElse {l as R} (h : Gen as (.n (.ifChain false)) (VCv l [])) (hs : ∀ v, VCv l [] v → R v) : Gen as (.n (.blockStmt false)) R :=
  Gen.prod1 Fm.blockStmtfalse_20 (by decide) (Gen.prod1 (R := R) Fm.ifElseBlockfalse_23 (by decide) h (fun v q => ⟨_, rfl, hs v q⟩)) (fun v q => ⟨_, rfl, q⟩)

theorem g_else {l els as as2 R} (h : Gen as (.n (.ifChain false)) (VCv l [])) (h2 : StmtsG els as2) (hs : ∀ v, VCv l els v → R v) :
    Gen (as ++ (W K.else_ b!"else" :: (W 58 b!":" :: (NL :: IND :: (as2 ++ [UNIND]))))) (.n (.blockStmt false)) R :=
  Gen.prod1 Fm.blockStmtfalse_20 (by decide) (Gen.prod4 (R := R) Fm.ifElseBlockfalse_24 (by decide) (chain_any h) (gtok K.else_ b!"else") (gtok 58 b!":") (g_suite h2)
    (fun v1 v2 v3 v4 q1 _ _ q4 => by
      obtain ⟨e, he, hA, _⟩ := vc_setElse q1 v2.pos v4.exprs
      refine ⟨{ v1 with expr := e, last := v4.last }, ?_, hs _ (hA _ q4)⟩
      show (setElse (chainLength v1.expr) v2.pos v4.exprs v1.expr).map _ = _
      rw [he]; rfl)) (fun v q => ⟨_, rfl, q⟩)

end Verif.Round
