import Verif.Model.Docstring
import Verif.Model.Quote
import Verif.Proofs.Strings
/-
C22: reindenting a docstring.
-/
namespace Verif.Props.Docstring
open Verif Verif.Rewrite

/-! ### Specification -/

/-- the lines of a text -/
def lines (s : Bytes) : List Bytes := splitAll 10 s

/-- a line without its leading spaces -/
def lstrip (l : Bytes) : Bytes := l.dropWhile (· == c!" ")
/-- a line without its trailing spaces -/
def rstrip (l : Bytes) : Bytes := (l.reverse.dropWhile (· == c!" ")).reverse
/-- number of leading spaces -/
def indent (l : Bytes) : Nat := (l.takeWhile (· == c!" ")).length

/-- Line by line (the first line has been split off): what may change. -/
inductive Reindented (old new : Nat) : List Bytes → List Bytes → Prop
  | nil : Reindented old new [] []
  /-- the last line: only leading spaces, by the difference of the indentations as far as there are spaces -/
  | last (l l') : lstrip l' = lstrip l → (lstrip l ≠ [] → indent l' = indent l + new - old) →
      Reindented old new [l] [l']
  /-- a blank line becomes empty -/
  | blank (l l2 ls ls') : lstrip l = [] → Reindented old new (l2 :: ls) ls' → Reindented old new (l :: l2 :: ls) ([] :: ls')
  /-- a line with text: no trailing spaces; leading spaces as for the last line -/
  | text (l l' l2 ls ls') : lstrip l ≠ [] → lstrip l' = rstrip (lstrip l) → indent l' = indent l + new - old →
      Reindented old new (l2 :: ls) ls' → Reindented old new (l :: l2 :: ls) (l' :: ls')

/-! ### Proofs -/

/-- every line is leading spaces and the rest -/
theorem line_split (l : Bytes) : l = List.replicate (indent l) c!" " ++ lstrip l := by
  unfold indent lstrip
  induction l with
  | nil => rfl
  | cons c l ih =>
    rw [List.takeWhile_cons, List.dropWhile_cons]
    split
    · rename_i h
      simp only [beq_iff_eq] at h
      rw [List.length_cons, List.replicate_succ, List.cons_append, ← ih, h]
    · rfl

theorem lstrip_head (l : Bytes) : ∀ c r, lstrip l = c :: r → c ≠ c!" " := by
  unfold lstrip
  induction l with
  | nil => simp
  | cons a l ih =>
    intro c r h
    rw [List.dropWhile_cons] at h
    split at h
    · exact ih c r h
    · rename_i hne
      injection h with h1 _
      rw [← h1]; simpa using hne

theorem lstrip_rep (n : Nat) (r : Bytes) (h : ∀ c t, r = c :: t → c ≠ c!" ") :
    lstrip (List.replicate n c!" " ++ r) = r ∧ (indent (List.replicate n c!" " ++ r) = n) := by
  induction n with
  | zero =>
    cases r with
    | nil => exact ⟨rfl, rfl⟩
    | cons c t =>
      have := h c t rfl
      simp [lstrip, indent, this]
  | succ n ih =>
    rw [List.replicate_succ, List.cons_append]
    unfold lstrip indent at *
    simp only [List.dropWhile_cons, List.takeWhile_cons, beq_self_eq_true, if_true, List.length_cons]
    exact ⟨ih.1, by rw [ih.2]⟩

theorem dedentFrom_text (line r : Bytes) (h : ∀ c t, r = c :: t → c ≠ c!" ") (hr : r ≠ []) : ∀ (k n : Nat),
    dedentFrom line k (List.replicate n c!" " ++ r) = List.replicate (n - k) c!" " ++ r := by
  intro k
  induction k with
  | zero =>
    intro n
    cases n with
    | zero => cases r with
      | nil => exact absurd rfl hr
      | cons c t => rfl
    | succ n => rw [List.replicate_succ, List.cons_append]; rfl
  | succ k ih =>
    intro n
    cases n with
    | zero => cases r with
      | nil => exact absurd rfl hr
      | cons c t =>
        have := h c t rfl
        simp [dedentFrom, this]
    | succ n =>
      rw [List.replicate_succ, List.cons_append, dedentFrom, if_neg (by simp), ih n]
      congr 2
      omega

theorem dedent_text (k : Nat) (l : Bytes) (h : lstrip l ≠ []) :
    dedent k l = List.replicate (indent l - k) c!" " ++ lstrip l := by
  have : dedent k l = dedentFrom l k (List.replicate (indent l) c!" " ++ lstrip l) := by
    rw [← line_split]; rfl
  rw [this, dedentFrom_text l _ (lstrip_head l) h]

theorem shift_text (old new : Nat) (l : Bytes) (h : lstrip l ≠ []) :
    shiftLine old new l = List.replicate (indent l + new - old) c!" " ++ lstrip l := by
  unfold shiftLine
  split
  · have e := line_split l
    have e2 : List.replicate (new - old) c!" " ++ l
        = List.replicate (new - old) c!" " ++ (List.replicate (indent l) c!" " ++ lstrip l) := by rw [← e]
    rw [e2, ← List.append_assoc, List.replicate_append_replicate]
    congr 2
    omega
  · rw [dedent_text _ _ h]
    congr 2
    omega

theorem dedentFrom_blank (line : Bytes) (h : ∀ c ∈ line, c = c!" ") : ∀ (k : Nat) (r : Bytes), (∀ c ∈ r, c = c!" ") →
    ∀ c ∈ dedentFrom line k r, c = c!" " := by
  intro k r
  induction r generalizing k with
  | nil => intro _; cases k <;> exact h
  | cons a r ih =>
    intro hr
    cases k with
    | zero => exact hr
    | succ k =>
      rw [dedentFrom, if_neg (by simpa using hr a (by simp))]
      exact ih k (fun c hc => hr c (by simp [hc]))

theorem lstrip_nil_iff (l : Bytes) : lstrip l = [] ↔ ∀ c ∈ l, c = c!" " := by
  unfold lstrip
  induction l with
  | nil => simp
  | cons a l ih =>
    rw [List.dropWhile_cons]
    split
    · rename_i h; simp only [beq_iff_eq] at h; rw [ih]; simp [h]
    · rename_i h; simp only [beq_iff_eq] at h; simp [h]

theorem shift_blank (old new : Nat) (l : Bytes) (h : lstrip l = []) : lstrip (shiftLine old new l) = [] := by
  rw [lstrip_nil_iff] at *
  unfold shiftLine
  split
  · intro c hc
    rcases List.mem_append.mp hc with hc | hc
    · exact List.eq_of_mem_replicate hc
    · exact h c hc
  · exact dedentFrom_blank l h _ l h

theorem trimRight_nil (l : Bytes) : trimRightSp l = [] ↔ ∀ c ∈ l, c = c!" " := by
  unfold trimRightSp
  rw [List.reverse_eq_nil_iff]
  have := lstrip_nil_iff l.reverse
  unfold lstrip at this
  rw [this]; simp

theorem trimRight_rep (n : Nat) (r : Bytes) (hr : lstrip r = r) (hne : r ≠ []) :
    trimRightSp (List.replicate n c!" " ++ r) = List.replicate n c!" " ++ trimRightSp r ∧ trimRightSp r ≠ [] := by
  have hns : ¬ ∀ c ∈ r, c = c!" " := by
    intro h; apply hne; rw [← hr]; exact (lstrip_nil_iff r).mpr h
  refine ⟨?_, fun h => hns ((trimRight_nil r).mp h)⟩
  unfold trimRightSp
  rw [List.reverse_append, List.reverse_replicate]
  have : ∀ (a b : Bytes), a.dropWhile (· == c!" ") ≠ [] → (a ++ b).dropWhile (· == c!" ") = a.dropWhile (· == c!" ") ++ b := by
    intro a b h
    induction a with
    | nil => exact absurd rfl h
    | cons x a ih =>
      rw [List.cons_append, List.dropWhile_cons, List.dropWhile_cons] at *
      split
      · rename_i hx; rw [if_pos hx] at h; exact ih h
      · rfl
  rw [this]
  · simp
  · intro h
    apply hns
    have h2 := lstrip_nil_iff r.reverse
    unfold lstrip at h2
    rw [h2] at h
    intro c hc; exact h c (by simpa using hc)

theorem rstrip_head {r : Bytes} (h : ∀ c t, r = c :: t → c ≠ c!" ") : ∀ c t, trimRightSp r = c :: t → c ≠ c!" " := by
  intro c t e
  cases r with
  | nil => simp [trimRightSp] at e
  | cons a r =>
    have ha := h a r rfl
    have : trimRightSp (a :: r) = a :: trimRightSp r := by
      unfold trimRightSp
      rw [List.reverse_cons]
      have h2 : ∀ x : Bytes, (x ++ [a]).dropWhile (· == c!" ") = x.dropWhile (· == c!" ") ++ [a] := by
        intro x
        induction x with
        | nil => simp [ha]
        | cons y x ih =>
          rw [List.cons_append, List.dropWhile_cons, List.dropWhile_cons]
          split
          · exact ih
          · rfl
      rw [h2]; simp
    rw [this] at e
    injection e with e1 _
    rw [← e1]; exact ha

theorem lstrip_of_head {r : Bytes} (h : ∀ c t, r = c :: t → c ≠ c!" ") : lstrip r = r := by
  have := (lstrip_rep 0 r h).1
  simpa using this

theorem formatLines_spec (old new : Nat) (ls : List Bytes) : Reindented old new ls (formatLines old new ls) := by
  induction ls with
  | nil => exact .nil
  | cons l ls ih =>
    cases ls with
    | nil =>
      by_cases h : lstrip l = []
      · exact .last _ _ (by rw [shift_blank _ _ _ h, h]) (fun h' => absurd h h')
      · rw [formatLines, shift_text old new l h]
        have := lstrip_rep (indent l + new - old) (lstrip l) (lstrip_head l)
        exact .last _ _ this.1 (fun _ => this.2)
    | cons l2 ls =>
      show Reindented old new _ (trimRightSp (shiftLine old new l) :: formatLines old new (l2 :: ls))
      by_cases h : lstrip l = []
      · have : trimRightSp (shiftLine old new l) = [] := by
          rw [trimRight_nil, ← lstrip_nil_iff]; exact shift_blank _ _ _ h
        rw [this]
        exact .blank _ _ _ _ h ih
      · have hh := lstrip_head l
        rw [shift_text old new l h, (trimRight_rep _ _ (lstrip_of_head hh) h).1]
        have := lstrip_rep (indent l + new - old) (trimRightSp (lstrip l)) (rstrip_head hh)
        exact .text _ _ _ _ _ h this.1 this.2 ih

theorem formatLines_no_nl (old new : Nat) (ls : List Bytes) (h : ∀ l ∈ ls, (10 : UInt8) ∉ l) :
    ∀ l ∈ formatLines old new ls, (10 : UInt8) ∉ l := by
  have hs : ∀ l : Bytes, (10 : UInt8) ∉ l → (10 : UInt8) ∉ shiftLine old new l := by
    intro l hl
    unfold shiftLine
    split
    · intro hm
      rcases List.mem_append.mp hm with hm | hm
      · exact absurd (List.eq_of_mem_replicate hm) (by decide)
      · exact hl hm
    · have : ∀ (r : Bytes) (k : Nat), (10 : UInt8) ∉ r → (10 : UInt8) ∉ dedentFrom l k r := by
        intro r
        induction r with
        | nil => intro k _; cases k <;> exact hl
        | cons a r ih =>
          intro k hr
          cases k with
          | zero => exact hr
          | succ k =>
            rw [dedentFrom]
            split
            · exact hr
            · exact ih k (fun h => hr (List.mem_cons_of_mem _ h))
      exact this l _ hl
  have ht : ∀ l : Bytes, (10 : UInt8) ∉ l → (10 : UInt8) ∉ trimRightSp l := by
    intro l hl hm
    unfold trimRightSp at hm
    rw [List.mem_reverse] at hm
    exact hl (List.mem_reverse.mp ((List.dropWhile_sublist _).subset hm))
  induction ls with
  | nil => intro l hl; cases hl
  | cons a ls ih =>
    cases ls with
    | nil =>
      intro l hl
      simp only [formatLines, List.mem_singleton] at hl
      rw [hl]; exact hs a (h a (by simp))
    | cons b ls =>
      intro l hl
      have hl : l = trimRightSp (shiftLine old new a) ∨ l ∈ formatLines old new (b :: ls) := by
        simpa [formatLines] using hl
      rcases hl with hl | hl
      · rw [hl]; exact ht _ (hs _ (h a (by simp)))
      · exact ih (fun x hx => h x (by simp [hx])) l hl

theorem lines_formatString (s : Bytes) (old new : Nat) : ∃ l ls, lines s = l :: ls ∧
    lines (formatString s old new) = l :: formatLines old new ls := by
  unfold formatString lines
  cases h : splitAll 10 s with
  | nil => exact absurd h (splitAll_ne_nil 10 s)
  | cons l ls =>
    refine ⟨l, ls, rfl, ?_⟩
    have hn := splitAll_no_sep 10 s
    rw [h] at hn
    simp only
    refine splitAll_joinWith 10 _ (by simp) ?_
    intro w hw
    rcases List.mem_cons.mp hw with hw | hw
    · rw [hw]; exact hn l (by simp)
    · exact formatLines_no_nl old new ls (fun x hx => hn x (by simp [hx])) w hw

/-- **C22.** Reindenting a docstring token keeps the first line and, in all other lines, changes nothing but leading and
trailing spaces: lines with text are moved by the difference of the indentations (as far as they have leading spaces) and
lose their trailing spaces, blank lines become empty, and the last line keeps everything but its indentation. -/
theorem C22_only_spaces_change (s : Bytes) (old new : Nat) :
    ∃ l ls ls', lines s = l :: ls ∧ lines (formatString s old new) = l :: ls' ∧ Reindented old new ls ls' := by
  obtain ⟨l, ls, h1, h2⟩ := lines_formatString s old new
  exact ⟨l, ls, _, h1, h2, formatLines_spec old new ls⟩

theorem shift_same (n : Nat) (l : Bytes) : shiftLine n n l = l := by
  unfold shiftLine
  rw [if_neg (by omega), Nat.sub_self]
  unfold dedent
  cases l <;> rfl

theorem trimRight_idem (l : Bytes) : trimRightSp (trimRightSp l) = trimRightSp l := by
  unfold trimRightSp
  rw [List.reverse_reverse]
  congr 1
  generalize l.reverse = r
  induction r with
  | nil => rfl
  | cons a r ih =>
    rw [List.dropWhile_cons]
    split
    · exact ih
    · rename_i h; rw [List.dropWhile_cons, if_neg h]

theorem formatLines_again (old new n : Nat) (ls : List Bytes) :
    formatLines n n (formatLines old new ls) = formatLines old new ls := by
  induction ls with
  | nil => rfl
  | cons a ls ih =>
    cases ls with
    | nil => simp only [formatLines, shift_same]
    | cons b ls =>
      have e : formatLines old new (a :: b :: ls) = trimRightSp (shiftLine old new a) :: formatLines old new (b :: ls) := rfl
      rw [e]
      cases h : formatLines old new (b :: ls) with
      | nil => cases ls <;> simp [formatLines] at h
      | cons x xs =>
        rw [h] at ih
        show trimRightSp (shiftLine n n (trimRightSp (shiftLine old new a))) :: formatLines n n (x :: xs) = _
        rw [shift_same, trimRight_idem, ih]

/-- **C22 (idempotent).** Once a docstring has been moved to its new indentation, formatting it there again changes nothing. -/
theorem C22_idempotent (s : Bytes) (old new : Nat) :
    formatString (formatString s old new) new new = formatString s old new := by
  obtain ⟨l, ls, h1, h2⟩ := lines_formatString s old new
  have e : formatString s old new = joinWith 10 (l :: formatLines old new ls) := by
    have := joinWith_splitAll' 10 (formatString s old new)
    unfold lines at h2
    rw [h2] at this; exact this.symm
  have h3 : formatString (formatString s old new) new new = joinWith 10 (l :: formatLines new new (formatLines old new ls)) := by
    unfold lines at h2
    generalize formatString s old new = t at *
    unfold formatString
    rw [h2]
  rw [h3, formatLines_again, ← e]

/-! ### Witnesses -/

example : formatString b!"\"\"\"Doc.\n  x  \n   \n    y\n  \"\"\"" 2 4 = b!"\"\"\"Doc.\n    x\n\n      y\n    \"\"\"" := by decide

/-- Finding: removing the space after a backslash at the end of a line turns it into a line continuation, so the string's
value changes by more than spaces: the newline disappears. -/
theorem C22_backslash_witness :
    (Quote.unquote (b!"\"\"\"a" ++ [10] ++ b!"b\\ " ++ [10] ++ b!"c\"\"\"")).s = b!"a" ++ [10] ++ b!"b\\ " ++ [10] ++ b!"c" ∧
    (Quote.unquote (formatString (b!"\"\"\"a" ++ [10] ++ b!"b\\ " ++ [10] ++ b!"c\"\"\"") 0 0)).s = b!"a" ++ [10] ++ b!"bc" := by
  decide

end Verif.Props.Docstring
