import Verif.Proofs.PrRel
/-
C51: printing keeps comments. C63: printing a tree without holes succeeds.
-/
namespace Verif.Printed
open Verif Verif.Syntax Verif.Print Verif.Round Verif.Walk Verif.Parser

/-! ## Specification -/

/-- white space -/
def White (s : Bytes) : Prop := ∀ b ∈ s, b ∈ ([32, 9, 10, 11, 12, 13] : List UInt8)

/-- `t` is `s` without the white space around it -/
def Stripped (s t : Bytes) : Prop :=
  ∃ a b, s = a ++ (t ++ b) ∧ White a ∧ White b ∧ (∀ x, t.head? = some x → ¬ White [x]) ∧ (∀ x, t.getLast? = some x → ¬ White [x])

/-- The comments `cs` are all in the text: each without the white space around it, and none overlaps with another one. -/
def ShowsAll (cs : List Comment) (out : Bytes) : Prop :=
  ∃ ps : List (Comment × Bytes), (ps.map (·.1)).Perm cs ∧ (∀ p ∈ ps, Stripped p.1.token p.2) ∧ Occur (ps.map (·.2)) out

/-- the suffix comments of a comment block at the end are forgotten if nothing comes after it -/
def endsWell (f : File) : Bool :=
  match (f.stmts.filter (fun x => !x.isNil)).getLast? with
  | some (.commentBlock c _) => c.suffix.isEmpty || !c.after.isEmpty || !f.comments.after.isEmpty
  | _ => true

/-! ## Stripping -/

theorem isSpace_iff (b : UInt8) : Buildozer.isSpaceByte b = true ↔ b ∈ ([32, 9, 10, 11, 12, 13] : List UInt8) := by
  unfold Buildozer.isSpaceByte
  simp [UInt8.le_iff_toNat_le, ← UInt8.toNat_inj]
  omega

theorem dropWhile_split (p : UInt8 → Bool) : ∀ s : Bytes, ∃ a, s = a ++ s.dropWhile p ∧ (∀ b ∈ a, p b = true) ∧ ∀ x, (s.dropWhile p).head? = some x → p x = false := by
  intro s
  induction s with
  | nil => exact ⟨[], rfl, (fun _ h => by cases h), (fun _ h => by cases h)⟩
  | cons y s ih =>
    by_cases h : p y = true
    · obtain ⟨a, h1, h2, h3⟩ := ih
      rw [List.dropWhile_cons, if_pos h]
      refine ⟨y :: a, congrArg (y :: ·) h1, ?_, h3⟩
      intro b hb
      rcases List.mem_cons.1 hb with rfl | hb
      · exact h
      · exact h2 b hb
    · rw [List.dropWhile_cons, if_neg h]
      refine ⟨[], rfl, (fun _ h => by cases h), ?_⟩
      intro x hx
      injection hx with hx
      rw [← hx]
      simpa using h

theorem comText_stripped (c : Comment) : Stripped c.token (comText c) := by
  unfold comText Buildozer.trimSpace
  obtain ⟨a, h1, h2, h3⟩ := dropWhile_split Buildozer.isSpaceByte c.token
  generalize hs : c.token.dropWhile Buildozer.isSpaceByte = s at h1 h3
  obtain ⟨b, h4, h5, h6⟩ := dropWhile_split Buildozer.isSpaceByte s.reverse
  generalize ht : s.reverse.dropWhile Buildozer.isSpaceByte = t at h4 h6
  have hst : s = t.reverse ++ b.reverse := by
    have := congrArg List.reverse h4
    rw [List.reverse_reverse, List.reverse_append] at this
    exact this
  refine ⟨a, b.reverse, ?_, ?_, ?_, ?_, ?_⟩
  · rw [h1, hst]
  · intro x hx; exact (isSpace_iff x).1 (h2 x hx)
  · intro x hx; exact (isSpace_iff x).1 (h5 x (List.mem_reverse.1 hx))
  · intro x hx hw
    have hx' : s.head? = some x := by
      rw [hst]
      cases hr : t.reverse with
      | nil => rw [hr] at hx; cases hx
      | cons y r => rw [hr] at hx; exact hx
    have := h3 x hx'
    rw [(isSpace_iff x).2 (hw x List.mem_cons_self)] at this
    cases this
  · intro x hx hw
    rw [List.getLast?_reverse] at hx
    have := h6 x hx
    rw [(isSpace_iff x).2 (hw x List.mem_cons_self)] at this
    cases this

/-! ## Occurrences -/

theorem Occur.app {l : List Bytes} {s t : Bytes} (h : Occur l s) : Occur l (s ++ t) := by
  induction h with
  | nil s => exact .nil _
  | cons x u l s _ ih =>
    have : x ++ (u ++ s) ++ t = x ++ (u ++ (s ++ t)) := by simp
    rw [this]
    exact .cons x u l _ ih

theorem Occur.snoc {l : List Bytes} {s t : Bytes} (h : Occur l s) : Occur (l ++ [t]) (s ++ t) := by
  induction h with
  | nil s =>
    have := Occur.cons s t [] [] (.nil _)
    rwa [List.append_nil] at this
  | cons x u l s _ ih =>
    have : x ++ (u ++ s) ++ t = x ++ (u ++ (s ++ t)) := by simp
    rw [this]
    exact .cons x u _ _ ih

/-- blanks at the end are in no occurrence -/
theorem Occur.trim {l : List Bytes} {s : Bytes} (h : Occur l s) : ∀ (s' b : Bytes), s = s' ++ b → (∀ x ∈ b, x = 32) → (∀ t ∈ l, t.getLast? ≠ some 32) → Occur l s' := by
  induction h with
  | nil s => intros; exact .nil _
  | cons x u l s h ih =>
    intro s' b he hb hl
    have hl' : ∀ t ∈ l, t.getLast? ≠ some 32 := fun t ht => hl t (List.mem_cons_of_mem _ ht)
    rw [← List.append_assoc] at he
    rcases List.append_eq_append_iff.1 he with ⟨a, h1, h2⟩ | ⟨a, h1, h2⟩
    · -- s' = x ++ u ++ a, s = a ++ b
      rw [h1, List.append_assoc]
      exact .cons _ _ _ _ (ih a b h2 hb hl')
    · -- x ++ u = s' ++ a, b = a ++ s
      have ha : ∀ y ∈ a, y = 32 := fun y hy => hb y (by rw [h2]; exact List.mem_append_left _ hy)
      have hs : ∀ y ∈ s, y = 32 := fun y hy => hb y (by rw [h2]; exact List.mem_append_right _ hy)
      have h0 := ih [] s rfl hs hl'
      by_cases hae : a = []
      · rw [hae, List.append_nil] at h1
        rw [← h1]
        have := Occur.cons x u l [] h0
        rwa [List.append_nil] at this
      · have hue : u = [] := by
          by_cases hu : u = []
          · exact hu
          · exfalso
            have e1 : (x ++ u).getLast? = u.getLast? := by
              cases hh : u.getLast? with
              | none => exact absurd (List.getLast?_eq_none_iff.1 hh) hu
              | some y => rw [List.getLast?_append, hh]; rfl
            have e2 : (s' ++ a).getLast? = a.getLast? := by
              cases hh : a.getLast? with
              | none => exact absurd (List.getLast?_eq_none_iff.1 hh) hae
              | some y => rw [List.getLast?_append, hh]; rfl
            rw [h1, e2] at e1
            cases hh : a.getLast? with
            | none => exact absurd (List.getLast?_eq_none_iff.1 hh) hae
            | some y =>
              rw [hh, ha y (List.mem_of_getLast? hh)] at e1
              exact hl u List.mem_cons_self e1.symm
        rw [hue]
        have := Occur.cons s' [] l [] h0
        simpa using this

/-! ## The invariant -/

/-- the comments `l` have been printed or are pending -/
def Has (l : List Comment) (st : St) : Prop := ∃ P : List Comment, (P ++ st.comment).Perm l ∧ Occur (P.map comText) st.out.reverse

theorem comText_last (c : Comment) : (comText c).getLast? ≠ some 32 := by
  obtain ⟨a, b, _, _, _, _, h⟩ := comText_stripped c
  intro e
  exact h 32 e (by intro x hx; rw [List.mem_singleton.1 hx]; decide)

theorem has_emit {l st} (s : Bytes) (h : Has l st) : Has l (emit s st) := by
  obtain ⟨P, h1, h2⟩ := h
  refine ⟨P, h1, ?_⟩
  show Occur _ (s.reverse ++ st.out).reverse
  rw [List.reverse_append, List.reverse_reverse]
  exact h2.app

theorem has_trim {l st} (h : Has l st) : Has l (trim st) := by
  obtain ⟨P, h1, h2⟩ := h
  refine ⟨P, h1, ?_⟩
  obtain ⟨a, e1, e2, _⟩ := dropWhile_split (· == 32) st.out
  refine h2.trim _ a.reverse ?_ ?_ ?_
  · show st.out.reverse = (st.out.dropWhile (· == 32)).reverse ++ a.reverse
    rw [← List.reverse_append, ← e1]
  · intro x hx
    simpa using e2 x (List.mem_reverse.1 hx)
  · intro t ht
    obtain ⟨c, _, rfl⟩ := List.mem_map.1 ht
    exact comText_last c

/-- the next pending comment is printed -/
theorem occ_com {P : List Comment} {st : St} (c : Comment) (h : Occur (P.map comText) st.out.reverse) : Occur ((P ++ [c]).map comText) (emit (comText c) st).out.reverse := by
  show Occur _ ((comText c).reverse ++ st.out).reverse
  rw [List.reverse_append, List.reverse_reverse, List.map_append]
  exact h.snoc

theorem has_flush (m : Nat) : ∀ (l : List Comment) (b : Bool) (P : List Comment) (st : St), Occur (P.map comText) st.out.reverse →
    Occur ((P ++ l).map comText) (flushComments m b l st).out.reverse := by
  intro l
  induction l with
  | nil => intro b P st h; simpa [flushComments] using h
  | cons c l ih =>
    intro b P st h
    unfold flushComments
    dsimp only
    have h' : Occur (P.map comText) (if b then st else emit (10 :: spaces m) (trim st)).out.reverse := by
      cases b
      · have h0 : Has P { st with comment := [] } := ⟨P, by show (P ++ []).Perm P; rw [List.append_nil], h⟩
        obtain ⟨Q, q1, q2⟩ := has_trim h0
        have := has_emit (10 :: spaces m) (has_trim h0)
        obtain ⟨a, e1, e2, _⟩ := dropWhile_split (· == 32) st.out
        have ht : Occur (P.map comText) (trim st).out.reverse := h.trim _ a.reverse (by
          show st.out.reverse = (st.out.dropWhile (· == 32)).reverse ++ a.reverse
          rw [← List.reverse_append, ← e1]) (by
          intro x hx; simpa using e2 x (List.mem_reverse.1 hx)) (by
          intro t ht; obtain ⟨c, _, rfl⟩ := List.mem_map.1 ht; exact comText_last c)
        show Occur _ ((10 :: spaces m).reverse ++ (trim st).out).reverse
        rw [List.reverse_append]
        exact ht.app
      · exact h
    have := ih false (P ++ [c]) _ (occ_com c h')
    rwa [List.append_assoc] at this

theorem has_newline {l st} (h : Has l st) : Has l (newline st) := by
  unfold newline
  dsimp only
  by_cases hc : st.comment.isEmpty = true
  · rw [if_pos hc]
    exact has_emit _ (has_trim h)
  · rw [if_neg hc]
    refine has_emit _ (has_trim ?_)
    obtain ⟨P, h1, h2⟩ := h
    refine ⟨P ++ st.comment, ?_, ?_⟩
    · show (P ++ st.comment ++ []).Perm l
      rw [List.append_nil]; exact h1
    · refine has_flush _ _ _ _ _ ?_
      show Occur _ ((b!"  ").reverse ++ st.out).reverse
      rw [List.reverse_append]
      exact h2.app

theorem steps_has : Steps (fun _ => true) false (fun l a b => ∀ L, Has L a → Has (L ++ l) b) where
  trans h1 h2 L h := by rw [← List.append_assoc]; exact h2 _ (h1 _ h)
  perm hp h L hL := by
    obtain ⟨P, h1, h2⟩ := h L hL
    exact ⟨P, h1.trans (hp.append_left L), h2⟩
  same ho hc _ L h := by
    obtain ⟨P, h1, h2⟩ := h
    rw [List.append_nil]
    exact ⟨P, by rw [hc]; exact h1, by rw [ho]; exact h2⟩
  plain _ _ := rfl
  cons _ _ _ _ := rfl
  emit s a _ L h := by rw [List.append_nil]; exact has_emit s h
  nl k a _ L h := by rw [List.append_nil]; exact has_emit _ h
  cont a L h := by rw [List.append_nil]; exact has_emit _ h
  spaces k a L h := by rw [List.append_nil]; exact has_emit _ h
  trim a L h := by rw [List.append_nil]; exact has_trim h
  com c a L h := by
    obtain ⟨P, h1, h2⟩ := h
    refine ⟨P ++ [c], ?_, occ_com c h2⟩
    show ((P ++ [c]) ++ a.comment).Perm (L ++ [c])
    refine List.Perm.trans ?_ (h1.append_right [c])
    rw [List.append_assoc, List.append_assoc]
    exact List.Perm.append_left P List.perm_append_comm
  pend l a L h := by
    obtain ⟨P, h1, h2⟩ := h
    refine ⟨P, ?_, h2⟩
    show (P ++ (a.comment ++ l)).Perm (L ++ l)
    rw [← List.append_assoc]
    exact h1.append_right l
  newline a L h := by rw [List.append_nil]; exact has_newline h

theorem flush_bad (m : Nat) : ∀ (l : List Comment) (b : Bool) (st : St), (flushComments m b l st).bad = st.bad := by
  intro l
  induction l with
  | nil => intros; rfl
  | cons c l ih => intro b st; unfold flushComments; rw [ih]; cases b <;> rfl

theorem newline_bad (st : St) : (newline st).bad = st.bad := by
  unfold newline
  dsimp only
  split
  · rfl
  · exact flush_bad _ _ _ _

theorem steps_bad : Steps (fun _ => true) false (fun _ a b => b.bad = a.bad) where
  trans h1 h2 := h2.trans h1
  perm _ h := h
  same _ _ h := h
  plain _ _ := rfl
  cons _ _ _ _ := rfl
  emit _ _ _ := rfl
  nl _ _ _ := rfl
  cont _ := rfl
  spaces _ _ := rfl
  trim _ := rfl
  com _ _ := rfl
  pend _ _ := rfl
  newline := newline_bad

/-! ## Nothing is left pending -/

theorem newline_comment (st : St) : (newline st).comment = [] := by
  unfold newline
  dsimp only
  split
  · rename_i h
    show st.comment = []
    simpa using h
  · rfl

theorem fileC_comment : ∀ (l : List Comment) (st : St), (l = [] → st.comment = []) → (fileComments l st).comment = [] := by
  intro l
  induction l with
  | nil => intro st h; exact h rfl
  | cons c l ih => intro st _; exact ih _ (fun _ => newline_comment _)

theorem after_needs : ∀ (l : List Comment) (st : St), st.needsNL = true ∨ l ≠ [] → (afterComments l st).needsNL = true := by
  intro l
  induction l with
  | nil => intro st h; exact h.resolve_right (fun h => h rfl)
  | cons c l ih => intro st _; exact ih _ (.inl rfl)

theorem nif_comment {st : St} (h : st.comment = []) : (newlineIfNeeded st).comment = [] := by
  unfold newlineIfNeeded
  split
  · exact newline_comment st
  · exact h

theorem before_comment {l : List Comment} {st : St} (h : st.comment = []) : (beforeComments l st).comment = [] := by
  unfold beforeComments
  split
  · exact h
  · have key : ∀ (l : List Comment) (st : St), st.comment = [] → (l.foldl (fun st c => newline (emit (comText c) st)) st).comment = [] := by
      intro l
      induction l with
      | nil => intro st h; exact h
      | cons c l ih => intro st _; exact ih _ (newline_comment _)
    dsimp only
    refine key _ _ ?_
    split
    · exact h
    · exact h

/-- the last statement is no comment block with a forgotten comment -/
def lastWell (l : List Expr) : Prop :=
  match l.getLast? with
  | some (.commentBlock c _) => c.suffix = [] ∨ c.after ≠ []
  | _ => True

theorem ite_comment {p : Prop} [Decidable p] {a b : St} (h1 : a.comment = []) (h2 : b.comment = []) : (if p then a else b).comment = [] := by
  split
  · exact h1
  · exact h2

theorem loop_settled (ft : FileType) (k : Nat) : ∀ (l : List Expr) (st : St), st.comment = [] → lastWell l →
    (stmtLoop ft (expr ft (k + 1)) l st).needsNL = true ∨ (stmtLoop ft (expr ft (k + 1)) l st).comment = [] := by
  intro l
  induction l with
  | nil => intro st h _; exact .inr h
  | cons s l ih =>
    intro st h hl
    unfold stmtLoop
    dsimp only
    cases l with
    | nil =>
      dsimp only
      by_cases hb : isCommentBlock s = true
      · rw [if_pos hb]
        cases s <;> try cases hb
        rename_i c p
        by_cases ha : c.after = []
        · right
          show (afterComments c.after _).comment = []
          rw [ha]
          have hsuf : c.suffix = [] := by
            rcases hl with hl | hl
            · exact hl
            · exact absurd ha hl
          show (beforeComments c.before (newlineIfNeeded st)).comment ++ c.suffix = []
          rw [before_comment (nif_comment h), hsuf]
          rfl
        · exact .inl (after_needs _ _ (.inr ha))
      · rw [if_neg hb]
        exact .inl (after_needs _ _ (.inl rfl))
    | cons s2 l' =>
      dsimp only
      refine ih _ ?_ ?_
      · exact ite_comment (newline_comment _) (newline_comment _)
      · unfold lastWell at hl ⊢
        rwa [List.getLast?_cons_cons] at hl

theorem file_comment (f : File) (h : endsWell f = true) : (file f {}).comment = [] := by
  unfold file
  dsimp only
  have h0 : (fileComments f.comments.before {}).comment = [] := fileC_comment _ _ (fun _ => rfl)
  generalize fileComments f.comments.before {} = st0 at h0
  unfold endsWell at h
  unfold statements
  have hb : budget f.stmts = (budget f.stmts - 1) + 1 := by unfold budget; omega
  rw [hb]
  generalize budget f.stmts - 1 = k
  by_cases ha : f.comments.after = []
  · rw [ha] at h ⊢
    have hl : lastWell (f.stmts.filter (fun x => !x.isNil)) := by
      unfold lastWell
      cases hg : (f.stmts.filter (fun x => !x.isNil)).getLast? with
      | none => trivial
      | some x =>
        rw [hg] at h
        cases x <;> first | trivial | skip
        simp only [List.isEmpty_nil, Bool.not_true, Bool.or_false, Bool.or_eq_true, List.isEmpty_iff, Bool.not_eq_true', List.isEmpty_eq_false_iff] at h
        exact h
    have := loop_settled f.type k _ st0 h0 hl
    show (newlineIfNeeded (stmtLoop f.type (expr f.type (k + 1)) _ st0)).comment = []
    unfold newlineIfNeeded
    by_cases hn : (stmtLoop f.type (expr f.type (k + 1)) (f.stmts.filter (fun x => !x.isNil)) st0).needsNL = true
    · rw [if_pos hn]; exact newline_comment _
    · rw [if_neg hn]; exact this.resolve_left hn
  · exact nif_comment (fileC_comment _ _ (fun e => absurd e ha))

/-! ## Theorems -/

/-- **C63** Printing a file without holes succeeds. -/
theorem C63_prints (f : File) (h : wholeO f.stmts = true) : ∃ out, format f = some out := by
  unfold format
  dsimp only
  have := steps_file steps_bad f (by rw [fitO_any]; exact h) {}
  rw [this]
  exact ⟨_, rfl⟩

/-- **C63** So does printing an expression without holes. -/
theorem C63_prints_expr (e : Expr) (h : whole e = true) : ∃ out, formatString e = some out := by
  unfold formatString
  by_cases hn : e.isNil = true
  · rw [if_pos hn]; exact ⟨_, rfl⟩
  · rw [if_neg hn]
    dsimp only
    have := steps_expr steps_bad .build (budget [e]) e 0 {} (by rw [fit_any]; exact h) (by unfold budget sizeL sizeL; omega)
    rw [this]
    exact ⟨_, rfl⟩

/-- **C51** Every comment in a place where comments are shown is in the printed file. -/
theorem C51_file (f : File) (out : Bytes) (hw : wholeO f.stmts = true) (he : endsWell f = true) (h : format f = some out) :
    ShowsAll (f.comments.before ++ (shownS f.stmts ++ f.comments.after)) out := by
  have h1 := steps_file steps_has f (by rw [fitO_any]; exact hw) {} [] ⟨[], List.Perm.refl _, .nil _⟩
  rw [List.nil_append] at h1
  obtain ⟨P, hp, ho⟩ := h1
  rw [file_comment f he, List.append_nil] at hp
  unfold format at h
  dsimp only at h
  split at h
  · cases h
  · injection h with h
    rw [h] at ho
    refine ⟨P.map (fun c => (c, comText c)), ?_, ?_, ?_⟩
    · rw [List.map_map]
      have : ((fun p : Comment × Bytes => p.1) ∘ fun c => (c, comText c)) = id := rfl
      rw [this, List.map_id]
      exact hp
    · intro p hp
      obtain ⟨c, _, rfl⟩ := List.mem_map.1 hp
      exact comText_stripped c
    · rw [List.map_map]
      exact ho

/-! ## Examples -/

def c1 : Comment := ⟨{}, b!"  # one "⟩
def c2 : Comment := ⟨{}, b!"# two"⟩
def c3 : Comment := ⟨{}, b!"# three"⟩
def c4 : Comment := ⟨{}, b!"# four"⟩

/-- `x = [1]` with comments before the statement, after the element, before the closing bracket and after the statement -/
def ex : File :=
  { type := .build, comments := {},
    stmts := [.assign { before := [c1], after := [c4] } (.ident { name := b!"x" }) {} b!"=" false
      (.list {} {} [.literal { suffix := [c2] } {} b!"1"] { comments := { before := [c3] } } false)] }

/-- the hypotheses of C51 and C63 hold, and this is what is printed -/
example : wholeO ex.stmts = true ∧ endsWell ex = true ∧
    format ex = some b!"# one\nx = [\n    1,  # two\n    # three\n]\n# four\n" ∧ shownS ex.stmts = [c1, c2, c3, c4] := by
  refine ⟨by decide +kernel, by decide +kernel, by decide +kernel, rfl⟩

/-- without holes: a missing operand makes the printer panic -/
example : whole (.binary {} (.ident { name := b!"x" }) {} b!"+" false .nil) = false ∧
    formatString (.binary {} (.ident { name := b!"x" }) {} b!"+" false .nil) = none := by
  refine ⟨by decide +kernel, by decide +kernel⟩

/-- **C51** A comment that is not shown: the parser attaches a comment before the closing bracket of an index at the end of an `if` block to the `else`,
where the printer does not look for it. -/
theorem C51_lost : ((Comm.parseFile 400 .default b!"if a:\n    x[\n        y\n        # lost\n    ]\nelse:\n    z\n").map (fun f => (f.stmts.map shown, format f))) =
    some ([[]], some b!"if a:\n    x[y]\nelse:\n    z\n") := by
  decide +kernel

/-- **C51** Comments that are shown, but as one: a comment at the end of a line and the comment on the next line change places and get onto the same line. -/
theorem C51_merged : (Comm.parseFile 400 .default b!"load(\":a.bzl\", b = # one\n    # two\n    \"d\")\n").bind format =
    some b!"load(\n    \":a.bzl\",\n    b =\n    # two  # one\n    \"d\",\n)\n" := by
  decide +kernel

end Verif.Printed
