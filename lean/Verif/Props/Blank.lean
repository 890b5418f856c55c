import Verif.Proofs.PrRel
/-
C52: lines of the printed file.
-/
namespace Verif.Printed
open Verif Verif.Syntax Verif.Print Verif.Parser

/-! ## Specification -/

/-- a text with a space at the end of one of its lines (the last line, which is not ended, does not count) -/
def TrailingBlank (s : Bytes) : Prop := ∃ a b, s = a ++ [32, 10] ++ b

/-- no space directly before a line end -/
def tidy : Bytes → Bool
  | a :: b :: l => !(a == 32 && b == 10) && tidy (b :: l)
  | _ => true

/-- a text that can stand anywhere in a line: it does not start with a line end, and has no space directly before a line end -/
def tidyText (s : Bytes) : Bool := s.head? != some 10 && tidy s

/-- `tidy` says what it should -/
theorem tidy_iff (s : Bytes) : tidy s = true ↔ ¬ TrailingBlank s := by
  fun_induction tidy s with
  | case1 a b l ih =>
    rw [Bool.and_eq_true, ih]
    constructor
    · rintro ⟨h1, h2⟩ ⟨x, y, e⟩
      cases x with
      | nil =>
        simp only [List.nil_append, List.cons_append, List.cons.injEq] at e
        rw [e.1, e.2.1] at h1
        cases h1
      | cons z x =>
        simp only [List.cons_append, List.cons.injEq] at e
        exact h2 ⟨x, y, e.2⟩
    · intro h
      refine ⟨?_, fun ⟨x, y, e⟩ => h ⟨a :: x, y, by rw [e]; rfl⟩⟩
      by_cases hab : a = 32 ∧ b = 10
      · exact absurd ⟨[], l, by rw [hab.1, hab.2]; rfl⟩ h
      · by_cases h1 : a = 32
        · have h2 : b ≠ 10 := fun h2 => hab ⟨h1, h2⟩
          simp [h2]
        · simp [h1]
  | case2 s hs =>
    refine ⟨fun _ => ?_, fun _ => rfl⟩
    rintro ⟨x, y, e⟩
    cases x with
    | nil => exact hs _ _ _ e
    | cons z x =>
      cases x with
      | nil => exact hs _ _ _ e
      | cons w x => exact hs _ _ _ e

/-! ## The invariant -/

/-- the same for the reversed output -/
def N : Bytes → Prop
  | [] => True
  | c :: l => ¬ (c = 10 ∧ l.head? = some 32) ∧ N l

theorem N_emit : ∀ (s out : Bytes), N out → tidy s = true → (s.head? = some 10 → out.head? ≠ some 32) → N (s.reverse ++ out) := by
  intro s
  induction s with
  | nil => intro out h _ _; exact h
  | cons c s ih =>
    intro out h ht hh
    rw [List.reverse_cons, List.append_assoc]
    refine ih (c :: out) ⟨fun hc => hh (by rw [hc.1]; rfl) hc.2, h⟩ ?_ ?_
    · cases s with
      | nil => rfl
      | cons d s => unfold tidy at ht; rw [Bool.and_eq_true] at ht; exact ht.2
    · intro hs hc
      cases s with
      | nil => cases hs
      | cons d s =>
        injection hs with hs
        injection hc with hc
        rw [hs, hc] at ht
        cases ht

theorem N_drop (p : UInt8 → Bool) : ∀ out : Bytes, N out → N (out.dropWhile p) := by
  intro out
  induction out with
  | nil => intro h; exact h
  | cons c out ih =>
    intro h
    rw [List.dropWhile_cons]
    split
    · exact ih h.2
    · exact h

theorem N_tidy : ∀ s : Bytes, N s.reverse → tidy s = true := by
  intro s h
  rw [tidy_iff]
  rintro ⟨a, b, rfl⟩
  have : (a ++ [32, 10] ++ b).reverse = b.reverse ++ (10 :: 32 :: a.reverse) := by simp
  rw [this] at h
  generalize b.reverse = y at h
  induction y with
  | nil => exact h.1 ⟨rfl, rfl⟩
  | cons c y ih => exact ih h.2

theorem tidy_noNL : ∀ s : Bytes, 10 ∉ s → tidy s = true := by
  intro s h
  rw [tidy_iff]
  rintro ⟨a, b, rfl⟩
  exact h (by simp)

theorem tidy_spaces (k : Nat) : tidy (10 :: spaces k) = true := by
  rw [tidy_iff]
  rintro ⟨a, b, e⟩
  cases a with
  | nil => injection e with e; exact absurd e (by decide)
  | cons x a =>
    injection e with _ e
    have : (10 : UInt8) ∈ spaces k := by rw [e]; simp
    exact absurd (List.eq_of_mem_replicate this) (by decide)

theorem head_trim (st : St) : (trim st).out.head? ≠ some 32 := by
  show (st.out.dropWhile (· == 32)).head? ≠ some 32
  intro h
  have := List.head?_dropWhile_not (· == 32) st.out
  rw [h] at this
  exact absurd this (by decide)

/-- comments without line ends -/
def NC (l : List Comment) : Prop := ∀ c ∈ l, 10 ∉ c.token

theorem trimSpace_mem {b : UInt8} {s : Bytes} (h : b ∈ Buildozer.trimSpace s) : b ∈ s := by
  unfold Buildozer.trimSpace at h
  have h1 := (List.dropWhile_sublist _).subset (List.mem_reverse.1 h)
  exact (List.dropWhile_sublist _).subset (List.mem_reverse.1 h1)

theorem N_nl (k : Nat) (st : St) (h : N st.out) (hh : st.out.head? ≠ some 32) : N (emit (10 :: spaces k) st).out := N_emit _ _ h (tidy_spaces k) (fun _ => hh)

theorem N_com (c : Comment) (st : St) (h : N st.out) (hc : 10 ∉ c.token) : N (emit (comText c) st).out := by
  have h1 : (10 : UInt8) ∉ comText c := fun h => hc (trimSpace_mem h)
  refine N_emit _ _ h (tidy_noNL _ h1) (fun e => ?_)
  exact absurd (List.mem_of_mem_head? e) h1

theorem N_flush (m : Nat) : ∀ (l : List Comment) (b : Bool) (st : St), NC l → N st.out → N (flushComments m b l st).out := by
  intro l
  induction l with
  | nil => intro b st _ h; exact h
  | cons c l ih =>
    intro b st hl h
    unfold flushComments
    refine ih _ _ (fun d hd => hl d (List.mem_cons_of_mem _ hd)) (N_com c _ ?_ (hl c List.mem_cons_self))
    cases b
    · exact N_nl _ _ (N_drop _ _ h) (head_trim _)
    · exact h

theorem N_newline (st : St) (h : N st.out) (hc : NC st.comment) : N (newline st).out ∧ NC (newline st).comment := by
  unfold newline
  dsimp only
  split
  · exact ⟨N_nl _ _ (N_drop _ _ h) (head_trim _), hc⟩
  · refine ⟨N_nl _ _ (N_drop _ _ (N_flush _ _ _ _ hc (N_emit _ _ h (by decide) (fun e => by cases e)))) (head_trim _), ?_⟩
    exact (fun c hc => by cases hc)

theorem steps_tidy : Steps tidyText true (fun l a b => NC l → N a.out → NC a.comment → N b.out ∧ NC b.comment) where
  plain s h := by
    unfold tidyText
    rw [tidy_noNL s h, Bool.and_true]
    cases s with
    | nil => rfl
    | cons c s =>
      have : c ≠ 10 := fun e => h (by rw [e]; simp)
      simpa using this
  cons c s hc h := by
    unfold tidyText at h ⊢
    rw [Bool.and_eq_true] at h ⊢
    refine ⟨by simpa using hc, ?_⟩
    cases s with
    | nil => rfl
    | cons d s =>
      unfold tidy
      rw [h.2, Bool.and_true]
      have : d ≠ 10 := by simpa using h.1
      simp [this]
  trans h1 h2 hc h h' := by
    obtain ⟨a1, a2⟩ := h1 (fun c hc' => hc c (List.mem_append_left _ hc')) h h'
    exact h2 (fun c hc' => hc c (List.mem_append_right _ hc')) a1 a2
  perm hp h hc := h (fun c hc' => hc c (hp.mem_iff.1 hc'))
  same h1 h2 _ _ h h' := by rw [h1, h2]; exact ⟨h, h'⟩
  emit s a ht _ h h' := by
    unfold tidyText at ht
    rw [Bool.and_eq_true] at ht
    exact ⟨N_emit _ _ h ht.2 (fun e => by rw [e] at ht; exact absurd ht.1 (by decide)), h'⟩
  nl k a hh _ h h' := ⟨N_nl k a h (hh rfl), h'⟩
  cont a _ h h' := by
    refine ⟨N_emit _ _ h ?_ (fun e => ?_), h'⟩
    · show tidy (32 :: 92 :: 10 :: spaces a.margin) = true
      have := tidy_spaces a.margin
      unfold tidy
      rw [Bool.and_eq_true]
      refine ⟨rfl, ?_⟩
      unfold tidy
      rw [this]; rfl
    · cases e
  spaces k a _ h h' := by
    have h1 : (10 : UInt8) ∉ Print.spaces k := fun hm => absurd (List.eq_of_mem_replicate hm) (by decide)
    exact ⟨N_emit _ _ h (tidy_noNL _ h1) (fun e => absurd (List.mem_of_mem_head? e) h1), h'⟩
  trim a _ h h' := ⟨N_drop _ _ h, h'⟩
  com c a hc h h' := ⟨N_com c a h (hc c List.mem_cons_self), h'⟩
  pend l a hc h h' := ⟨h, fun c hm => (List.mem_append.1 hm).elim (h' c) (hc c)⟩
  newline a _ h h' := N_newline a h h'

/-- **C52** No line of a printed file ends with a space. Conditions: nothing is missing in the tree; names, numbers, operators and the printed string literals
have no space before a line end inside them (a string literal with such lines has to keep them); comments are single lines; tuples without parentheses have no
comments inside them (see `C52_tuple_comment`). -/
theorem C52_no_trailing_blanks (f : File) (out : Bytes) (hw : fitO tidyText true f.stmts = true)
    (hc : ∀ c ∈ f.comments.before ++ (shownS f.stmts ++ f.comments.after), 10 ∉ c.token) (h : format f = some out) : ¬ TrailingBlank out := by
  have h1 := (steps_file steps_tidy f hw {} hc trivial (fun c hc => by cases hc)).1
  rw [← tidy_iff]
  unfold format at h
  dsimp only at h
  split at h
  · cases h
  · injection h with h
    rw [← h]
    exact N_tidy _ (by rw [List.reverse_reverse]; exact h1)

/-! ## The end of the file -/

/-- between statements: a line end is due, or the line is empty -/
def J (st : St) : Prop := st.margin = 0 ∧ (st.needsNL = true ∨ st.out = [] ∨ st.out.head? = some 10)

theorem J_newline {st : St} (h : st.margin = 0) : J (newline st) ∧ (newline st).out.head? = some 10 := by
  have h1 := (Round.keep_newline st).2
  refine ⟨⟨h1.trans h, .inr (.inr ?_)⟩, ?_⟩
  all_goals
    unfold newline
    dsimp only
    split
    · show ((10 :: spaces st.margin).reverse ++ _).head? = _
      rw [h]; rfl
    · show ((10 :: spaces (flushComments st.margin true st.comment (emit b!"  " { st with needsNL := false })).margin).reverse ++ _).head? = _
      rw [(Round.keep_flush _ _ _ _).2]
      show ((10 :: spaces st.margin).reverse ++ _).head? = _
      rw [h]; rfl

theorem J_nif {st : St} (h : J st) : J (newlineIfNeeded st) := by
  unfold newlineIfNeeded
  split
  · exact (J_newline h.1).1
  · exact h

theorem J_nif' {st : St} (h : J st) : (newlineIfNeeded st).out = [] ∨ (newlineIfNeeded st).out.head? = some 10 := by
  unfold newlineIfNeeded
  split
  · exact .inr (J_newline h.1).2
  · rename_i hn
    exact h.2.resolve_left hn

theorem J_fold : ∀ (l : List Comment) (st : St), st.margin = 0 → l ≠ [] → J (l.foldl (fun st c => newline (emit (comText c) st)) st) := by
  intro l
  induction l with
  | nil => intro _ _ h; exact absurd rfl h
  | cons c l ih =>
    intro st h _
    have h1 := (J_newline (st := emit (comText c) st) h).1
    cases l with
    | nil => exact h1
    | cons d l => exact ih _ h1.1 (by simp)

theorem J_before {st : St} (l : List Comment) (h : J st) : J (beforeComments l st) := by
  unfold beforeComments
  split
  · exact h
  · rename_i hl
    dsimp only
    refine J_fold _ _ ?_ (by simpa using hl)
    split <;> exact h.1

theorem J_file : ∀ (l : List Comment) {st : St}, J st → J (fileComments l st) := by
  intro l
  induction l with
  | nil => intro st h; exact h
  | cons c l ih => intro st h; exact ih (J_newline (st := emit (comText c) st) h.1).1

theorem J_after : ∀ (l : List Comment) {st : St}, J st → J (afterComments l st) := by
  intro l
  induction l with
  | nil => intro st h; exact h
  | cons c l ih => intro st h; exact ih (st := softNewline (emit (comText c) (newlineIfNeeded st))) ⟨(J_nif h).1, .inl rfl⟩

theorem J_stmt (ft : FileType) (n : Nat) (s : Expr) {st : St} (h : J st) :
    J (if isCommentBlock s then expr ft n s 0 st else softNewline (expr ft n s 0 st)) := by
  have hm : (expr ft n s 0 st).margin = 0 := (Round.keep_expr ft n s 0 st).2.trans h.1
  split
  · rename_i hs
    cases s
    case commentBlock c p =>
      cases n with
      | zero => exact h
      | succ n => exact J_before _ (J_nif h)
    all_goals cases hs
  · exact ⟨hm, .inl rfl⟩

theorem J_loop (ft : FileType) (n : Nat) : ∀ (l : List Expr) {st : St}, J st → J (stmtLoop ft (expr ft n) l st) := by
  intro l
  induction l with
  | nil => intro st h; exact h
  | cons s l ih =>
    intro st h
    have h1 := J_after s.comments.after (J_stmt ft n s h)
    unfold stmtLoop
    dsimp only
    cases l with
    | nil => exact h1
    | cons s2 l' =>
      dsimp only
      refine ih ?_
      have h2 := (J_newline h1.1).1
      generalize (newline (afterComments s.comments.after (if isCommentBlock s = true then expr ft n s 0 st else softNewline (expr ft n s 0 st)))) = st2 at h2 ⊢
      split
      · exact h2
      · exact (J_newline h2.1).1

/-- **C52** A printed file is empty or ends with a line end. -/
theorem C52_ends_with_newline (f : File) (out : Bytes) (h : format f = some out) : out = [] ∨ out.getLast? = some 10 := by
  unfold format at h
  dsimp only at h
  split at h
  · cases h
  · injection h with h
    rw [← h]
    have h0 : J {} := ⟨rfl, .inr (.inl rfl)⟩
    have h1 := J_nif' (J_file f.comments.after (J_loop f.type (budget f.stmts) (f.stmts.filter (fun x => !x.isNil)) (J_file f.comments.before h0)))
    rw [List.getLast?_reverse, List.reverse_eq_nil_iff]
    exact h1

/-! ## Examples -/

def cm (s : Bytes) : Comment := ⟨{}, s⟩

/-- `x = [1, "a⏎b"]` with comments -/
def exf : File :=
  { type := .build, comments := { before := [cm b!"# top  "] },
    stmts := [.assign { before := [cm b!"# one"], after := [cm b!"# four "] } (.ident { name := b!"x" }) {} b!"=" false
      (.list {} {} [.literal { suffix := [cm b!"# two"] } {} b!"1", .string { value := b!"a\nb", triple := true }] { comments := { before := [cm b!"# three"] } } false),
      .defS {} {} b!"f" [] [.branch { suffix := [cm b!"# five"] } b!"pass" {}] {} false false .nil] }

/-- the hypotheses of `C52_no_trailing_blanks` hold for it, and this is what is printed -/
example : fitO tidyText true exf.stmts = true ∧ (∀ c ∈ exf.comments.before ++ (shownS exf.stmts ++ exf.comments.after), 10 ∉ c.token) ∧
    format exf = some b!"# top\n# one\nx = [\n    1,  # two\n    \"\"\"a\nb\"\"\",\n    # three\n]\n# four\n\ndef f():\n    pass  # five\n" := by
  refine ⟨by decide +kernel, by decide +kernel, by decide +kernel⟩

/-- **C52** Why comments inside a tuple without parentheses are excluded: a line with a space at its end. -/
theorem C52_tuple_comment :
    (Comm.parseFile 400 .default b!"{x: # k0\n y for a, # k\n b in c}\n").bind format = some b!"{x: y for \n    # k0\n    a,  # k\n    b,\n in c}\n" ∧
    TrailingBlank b!"{x: y for \n    # k0\n    a,  # k\n    b,\n in c}\n" := by
  refine ⟨by decide +kernel, b!"{x: y for", b!"    # k0\n    a,  # k\n    b,\n in c}\n", by decide +kernel⟩

end Verif.Printed
