import Verif.Proofs.Strings
import Verif.Model.Split
/-
C37: how buildozer splits commands.
-/
namespace Verif.Props.Split
open Verif Verif.Buildozer

/-! ### Specification -/

/-- a space or a line break -/
def Blank (c : UInt8) : Prop := c = c!" " ∨ c = c!"\n"

instance (c : UInt8) : Decidable (Blank c) := inferInstanceAs (Decidable (_ ∨ _))

/-- a word as it is written: a backslash before every blank -/
def escaped (w : Bytes) : Bytes := w.flatMap fun c => if Blank c then [c!"\\", c] else [c]

/-- `s` is a spelling of the words: written one after the other and separated by blanks. A backslash at the end of a word would
escape the separator, so it is only possible in the last one. -/
inductive Spelling : Bytes → List Bytes → Prop
  | nil : Spelling [] []
  | blank (c s ws) : Blank c → Spelling s ws → Spelling (c :: s) ws
  | last (w) : w ≠ [] → Spelling (escaped w) [w]
  | word (w c s ws) : w ≠ [] → w.getLast? ≠ some c!"\\" → Blank c → Spelling s ws → Spelling (escaped w ++ c :: s) (w :: ws)

/-! ### Proofs -/

theorem isBlank_iff (c : UInt8) : isBlank c = true ↔ Blank c := by simp [isBlank, Blank]

theorem isBlank_false (c : UInt8) : isBlank c = false ↔ ¬ Blank c := by rw [← isBlank_iff]; simp

theorem not_blank_backslash : ¬ Blank c!"\\" := by decide

theorem escaped_cons (c : UInt8) (w : Bytes) : escaped (c :: w) = (if Blank c then [c!"\\", c] else [c]) ++ escaped w := rfl

theorem escaped_head (w : Bytes) : ∀ c l, escaped w = c :: l → ¬ Blank c := by
  cases w with
  | nil => intro c l h; cases h
  | cons d w =>
    intro c l h
    rw [escaped_cons] at h
    split at h
    · cases h; exact not_blank_backslash
    · rename_i hd; cases h; exact hd

/-- scanning a written word followed by nothing or a blank -/
theorem scanWord_escaped (w : Bytes) : ∀ (rest : Bytes), (rest = [] ∨ (w.getLast? ≠ some c!"\\" ∧ ∃ c l, rest = c :: l ∧ Blank c)) →
    scanWord (escaped w ++ rest) = (escaped w, rest) := by
  induction w with
  | nil =>
    intro rest h
    rcases h with rfl | ⟨_, c, l, rfl, hc⟩
    · rfl
    · have hb := (isBlank_iff c).mpr hc
      cases l with
      | nil => simp [escaped, scanWord, hb]
      | cons d l =>
        have hne : ¬ (c = c!"\\" ∧ isBlank d = true) := by
          rintro ⟨rfl, _⟩; exact not_blank_backslash hc
        simp only [escaped, List.flatMap_nil, List.nil_append, scanWord, hne, hb, if_false, if_true]
  | cons c w ih =>
    intro rest h
    have hrest : rest = [] ∨ (w.getLast? ≠ some c!"\\" ∧ ∃ c l, rest = c :: l ∧ Blank c) ∨ (w = [] ∧ c ≠ c!"\\" ∧ ∃ c l, rest = c :: l ∧ Blank c) := by
      rcases h with h | ⟨h1, h2⟩
      · exact .inl h
      · cases w with
        | nil => exact .inr (.inr ⟨rfl, by simpa using h1, h2⟩)
        | cons d w => exact .inr (.inl ⟨by simpa using h1, h2⟩)
    have hih : scanWord (escaped w ++ rest) = (escaped w, rest) := by
      rcases hrest with h | h | ⟨rfl, _, h⟩
      · exact ih rest (.inl h)
      · exact ih rest (.inr h)
      · exact ih rest (.inr ⟨by simp, h⟩)
    rw [escaped_cons]
    by_cases hc : Blank c
    · have hb := (isBlank_iff c).mpr hc
      rw [if_pos hc]
      simp only [List.cons_append, List.nil_append]
      unfold scanWord
      rw [if_pos ⟨rfl, hb⟩, hih]
    · have hb := (isBlank_false c).mpr hc
      rw [if_neg hc]
      simp only [List.cons_append, List.nil_append]
      cases hr : escaped w ++ rest with
      | nil =>
        have hw : escaped w = [] ∧ rest = [] := List.append_eq_nil_iff.mp hr
        unfold scanWord
        simp [hb, hw.1, hw.2]
      | cons d l =>
        have hne : ¬ (c = c!"\\" ∧ isBlank d = true) := by
          rintro ⟨rfl, hd⟩
          rw [isBlank_iff] at hd
          cases hw : escaped w with
          | cons x y =>
            rw [hw] at hr
            cases hr
            exact escaped_head w d _ hw hd
          | nil =>
            rw [hw, List.nil_append] at hr
            have hw0 : w = [] := by
              cases w with
              | nil => rfl
              | cons a w => rw [escaped_cons] at hw; split at hw <;> cases hw
            subst hw0
            rcases h with h | ⟨h, _⟩
            · rw [h] at hr; cases hr
            · exact h rfl
        unfold scanWord
        rw [if_neg hne, if_neg (by simp [hb]), ← hr, hih]

/-- a backslash before every line break only -/
def escapedNl (w : Bytes) : Bytes := w.flatMap fun c => if c = c!"\n" then [c!"\\", c] else [c]

theorem replace_space (w : Bytes) : replacePair c!"\\" c!" " [c!" "] (escaped w) = escapedNl w := by
  induction w with
  | nil => rfl
  | cons c w ih =>
    rw [escaped_cons]
    show _ = (if c = c!"\n" then [c!"\\", c] else [c]) ++ escapedNl w
    by_cases h1 : c = c!" "
    · subst h1
      rw [if_pos (.inl rfl), if_neg (by decide)]
      simp only [List.cons_append, List.nil_append]
      unfold replacePair
      rw [if_pos ⟨rfl, rfl⟩, ih]
      rfl
    · have skip : ∀ (x : UInt8) (l : Bytes), (∀ y l', l = y :: l' → ¬ (x = c!"\\" ∧ y = c!" ")) →
          replacePair c!"\\" c!" " [c!" "] (x :: l) = x :: replacePair c!"\\" c!" " [c!" "] l := by
        intro x l h
        cases l with
        | nil => rfl
        | cons y l => unfold replacePair; rw [if_neg (h y l rfl)]; rw [← replacePair.eq_def]
      have tail : ∀ y l', escaped w = y :: l' → y ≠ c!" " := by
        intro y l' h he
        exact escaped_head w y l' h (.inl he)
      by_cases h2 : c = c!"\n"
      · subst h2
        rw [if_pos (.inr rfl), if_pos rfl]
        simp only [List.cons_append, List.nil_append]
        rw [skip _ _ (by rintro y l' h ⟨_, rfl⟩; cases h), skip _ _ (by rintro y l' h ⟨h', _⟩; cases h'), ih]
      · rw [if_neg (fun h => h.elim h1 h2), if_neg h2]
        simp only [List.cons_append, List.nil_append]
        rw [skip _ _ (by rintro y l' h ⟨_, rfl⟩; exact tail _ _ h rfl), ih]

theorem replace_nl (w : Bytes) : replacePair c!"\\" c!"\n" [c!"\n"] (escapedNl w) = w := by
  induction w with
  | nil => rfl
  | cons c w ih =>
    show replacePair _ _ _ ((if c = c!"\n" then [c!"\\", c] else [c]) ++ escapedNl w) = _
    by_cases h1 : c = c!"\n"
    · subst h1
      rw [if_pos rfl]
      simp only [List.cons_append, List.nil_append]
      unfold replacePair
      rw [if_pos ⟨rfl, rfl⟩, ih]
      rfl
    · rw [if_neg h1]
      simp only [List.cons_append, List.nil_append]
      cases hw : escapedNl w with
      | nil => rw [hw] at ih; rw [← ih]; rfl
      | cons y l =>
        have hy : y ≠ c!"\n" := by
          rintro rfl
          cases w with
          | nil => cases hw
          | cons d w =>
            have hw' : (if d = c!"\n" then [c!"\\", d] else [d]) ++ escapedNl w = c!"\n" :: l := hw
            split at hw'
            · cases hw'
            · rename_i hd; cases hw'; exact hd rfl
        unfold replacePair
        rw [if_neg (by rintro ⟨_, h⟩; exact hy h), ← hw, ih]

theorem escaped_ne_nil {w : Bytes} (h : w ≠ []) : escaped w ≠ [] := by
  cases w with
  | nil => exact absurd rfl h
  | cons c w => rw [escaped_cons]; split <;> simp

theorem findWords_blank (n : Nat) (c : UInt8) (s : Bytes) (hc : Blank c) : findWords (n + 1) (c :: s) = findWords n s := by
  show (if isBlank c then _ else _) = _
  rw [if_pos ((isBlank_iff c).mpr hc)]

theorem findWords_word (n : Nat) (w rest : Bytes) (hw : w ≠ []) (hr : rest = [] ∨ (w.getLast? ≠ some c!"\\" ∧ ∃ c l, rest = c :: l ∧ Blank c)) :
    findWords (n + 1) (escaped w ++ rest) = escaped w :: findWords n rest := by
  have hs := scanWord_escaped w rest hr
  cases he : escaped w with
  | nil => exact absurd he (escaped_ne_nil hw)
  | cons d l =>
    rw [he] at hs
    show (if isBlank d then _ else _) = _
    rw [if_neg (by rw [isBlank_iff]; exact escaped_head w d l he)]
    rw [show d :: l.append rest = d :: (l ++ rest) from rfl, show d :: (l ++ rest) = d :: l ++ rest from rfl, hs]

theorem spelling_find {s : Bytes} {ws : List Bytes} (h : Spelling s ws) : ∀ n, s.length ≤ n → findWords n s = ws.map escaped := by
  induction h with
  | nil => intro n _; cases n <;> rfl
  | blank c s ws hc _ ih =>
    intro n hn
    cases n with
    | zero => cases hn
    | succ n => rw [findWords_blank n c s hc, ih n (by simpa using hn)]
  | last w hw =>
    intro n hn
    cases n with
    | zero => exact absurd (List.length_eq_zero_iff.mp (Nat.le_zero.mp hn)) (escaped_ne_nil hw)
    | succ n =>
      have := findWords_word n w [] hw (.inl rfl)
      rw [List.append_nil] at this
      rw [this]
      cases n <;> rfl
  | word w c s ws hw hl hc _ ih =>
    intro n hn
    have hpos : 0 < (escaped w).length := List.length_pos_iff.mpr (escaped_ne_nil hw)
    rw [List.length_append, List.length_cons] at hn
    cases n with
    | zero => omega
    | succ n =>
      rw [findWords_word n w (c :: s) hw (.inr ⟨hl, c, s, rfl, hc⟩)]
      cases n with
      | zero => omega
      | succ n => rw [findWords_blank n c s hc, ih n (by omega)]; rfl

/-- **C37 (splitting a command).** Splitting the spelling of a list of words gives the words. -/
theorem C37_split {s : Bytes} {ws : List Bytes} (h : Spelling s ws) : splitOnSpaces s = ws := by
  unfold splitOnSpaces
  rw [spelling_find h _ (Nat.le_refl _), List.map_map]
  have : ∀ w ∈ ws, ((fun w => replacePair c!"\\" c!"\n" [c!"\n"] (replacePair c!"\\" c!" " [c!" "] w)) ∘ escaped) w = w := by
    intro w _
    show replacePair _ _ _ (replacePair _ _ _ (escaped w)) = w
    rw [replace_space, replace_nl]
  rw [List.map_congr_left this, List.map_id']

theorem spelling_exists : ∀ (n : Nat) (s : Bytes), s.length ≤ n → ∃ ws, Spelling s ws := by
  -- read one word: everything up to the next blank that is not escaped
  have word : ∀ (m : Nat) (s : Bytes), s.length ≤ m → ∃ w rest, s = escaped w ++ rest ∧
      (rest = [] ∨ (w.getLast? ≠ some c!"\\" ∧ ∃ c l, rest = c :: l ∧ Blank c)) ∧ (w = [] → s = rest) := by
    intro m
    induction m with
    | zero =>
      intro s hs
      have : s = [] := List.length_eq_zero_iff.mp (Nat.le_zero.mp hs)
      exact ⟨[], [], by simp [this, escaped], .inl rfl, fun _ => this⟩
    | succ m ih =>
      intro s hs
      match s, hs with
      | [], _ => exact ⟨[], [], rfl, .inl rfl, fun _ => rfl⟩
      | c :: s, hs =>
        by_cases hc : Blank c
        · exact ⟨[], c :: s, rfl, .inr ⟨by simp, c, s, rfl, hc⟩, fun _ => rfl⟩
        · match s, hs with
          | [], _ => exact ⟨[c], [], by simp [escaped, hc], .inl rfl, (fun h => nomatch h)⟩
          | d :: s, hs =>
            by_cases hd : c = c!"\\" ∧ Blank d
            · obtain ⟨w, rest, h1, h2, _⟩ := ih s (by simp at hs; omega)
              refine ⟨d :: w, rest, ?_, ?_, (fun h => nomatch h)⟩
              · rw [escaped_cons, if_pos hd.2, h1, hd.1]; rfl
              · rcases h2 with h2 | ⟨h2, h3⟩
                · exact .inl h2
                · refine .inr ⟨?_, h3⟩
                  cases w with
                  | nil =>
                    intro h
                    simp only [List.getLast?_singleton, Option.some.injEq] at h
                    rw [h] at hd
                    exact not_blank_backslash hd.2
                  | cons a w => simpa using h2
            · obtain ⟨w, rest, h1, h2, h3⟩ := ih (d :: s) (by simpa using hs)
              refine ⟨c :: w, rest, ?_, ?_, (fun h => nomatch h)⟩
              · rw [escaped_cons, if_neg hc, h1]; rfl
              · rcases h2 with h2 | ⟨h2, c', l, h4, h5⟩
                · exact .inl h2
                · refine .inr ⟨?_, c', l, h4, h5⟩
                  cases w with
                  | nil =>
                    intro h
                    simp only [List.getLast?_singleton, Option.some.injEq] at h
                    have := h3 rfl
                    rw [h4] at this
                    cases this
                    exact hd ⟨h, h5⟩
                  | cons a w => simpa using h2
  intro n
  induction n with
  | zero =>
    intro s hs
    have : s = [] := List.length_eq_zero_iff.mp (Nat.le_zero.mp hs)
    exact ⟨[], this ▸ .nil⟩
  | succ n ih =>
    intro s hs
    cases s with
    | nil => exact ⟨[], .nil⟩
    | cons c s =>
      by_cases hc : Blank c
      · obtain ⟨ws, h⟩ := ih s (by simpa using hs)
        exact ⟨ws, .blank c s ws hc h⟩
      · obtain ⟨w, rest, h1, h2, h3⟩ := word (c :: s).length (c :: s) (Nat.le_refl _)
        have hw : w ≠ [] := by
          intro hw
          rcases h2 with h2 | ⟨_, c', l, h4, h5⟩
          · have := h3 hw; rw [h2] at this; cases this
          · have := h3 hw; rw [h4] at this; cases this; exact hc h5
        rcases h2 with rfl | ⟨h2, c', l, rfl, h5⟩
        · rw [List.append_nil] at h1
          exact ⟨[w], h1 ▸ .last w hw⟩
        · have hpos : 0 < (escaped w).length := List.length_pos_iff.mpr (escaped_ne_nil hw)
          have hl := congrArg List.length h1
          rw [List.length_append, List.length_cons] at hl
          obtain ⟨ws, h⟩ := ih l (by simp at hl hs; omega)
          exact ⟨w :: ws, h1 ▸ .word w c' l ws hw h2 h5 h⟩

/-- **C37 (every input).** Every input is the spelling of exactly one list of words, the one it is split into. -/
theorem C37_split_iff (s : Bytes) (ws : List Bytes) : splitOnSpaces s = ws ↔ Spelling s ws := by
  constructor
  · rintro rfl
    obtain ⟨ws, h⟩ := spelling_exists _ s (Nat.le_refl _)
    rw [C37_split h]
    exact h
  · exact C37_split

/-- words are never empty -/
theorem C37_words_nonempty (s : Bytes) : ∀ w ∈ splitOnSpaces s, w ≠ [] := by
  have h := (C37_split_iff s _).mp rfl
  revert h
  generalize splitOnSpaces s = ws
  intro h
  induction h with
  | nil => intro w hw; cases hw
  | blank _ _ _ _ _ ih => exact ih
  | last w hw => intro w' hw'; rw [List.mem_singleton.mp hw']; exact hw
  | word w c s ws hw _ _ _ ih =>
    intro w' hw'
    rcases List.mem_cons.mp hw' with rfl | hw'
    · exact hw
    · exact ih w' hw'

/-! ### command lines of a file -/

/-- an argument as it is written in a command file: a backslash before every pipe -/
def escapedPipes (w : Bytes) : Bytes := w.flatMap fun c => if c = c!"|" then [c!"\\", c] else [c]

/-- the arguments, separated by pipes -/
def written : List Bytes → Bytes
  | [] => []
  | [w] => escapedPipes w
  | w :: ws => escapedPipes w ++ c!"|" :: written ws

/-- arguments that can be written: no zero bytes, and only the last one may end in a backslash -/
def Writable : List Bytes → Prop
  | [] => False
  | [w] => (0 : UInt8) ∉ w
  | w :: ws => (0 : UInt8) ∉ w ∧ w.getLast? ≠ some c!"\\" ∧ Writable ws

/-- two zero bytes for every pipe -/
def saved (w : Bytes) : Bytes := w.flatMap fun c => if c = c!"|" then [0, 0] else [c]

theorem escapedPipes_cons (c : UInt8) (w : Bytes) :
    escapedPipes (c :: w) = (if c = c!"|" then [c!"\\", c] else [c]) ++ escapedPipes w := rfl

theorem saved_cons (c : UInt8) (w : Bytes) : saved (c :: w) = (if c = c!"|" then [0, 0] else [c]) ++ saved w := rfl

theorem replacePair_skip (a b : UInt8) (r : Bytes) (x : UInt8) (l : Bytes) (h : ∀ y l', l = y :: l' → ¬ (x = a ∧ y = b)) :
    replacePair a b r (x :: l) = x :: replacePair a b r l := by
  cases l with
  | nil => rfl
  | cons y l => unfold replacePair; rw [if_neg (h y l rfl)]; rw [← replacePair.eq_def]

theorem escapedPipes_head (w : Bytes) : ∀ c l, escapedPipes w = c :: l → c ≠ c!"|" := by
  cases w with
  | nil => intro c l h; cases h
  | cons d w =>
    intro c l h
    rw [escapedPipes_cons] at h
    split at h
    · cases h; decide
    · rename_i hd; cases h; exact hd

theorem save_escaped (w : Bytes) : ∀ (rest : Bytes), (rest = [] ∨ (w.getLast? ≠ some c!"\\" ∧ ∃ l, rest = c!"|" :: l)) →
    saveEscapedPipes (escapedPipes w ++ rest) = saved w ++ saveEscapedPipes rest := by
  induction w with
  | nil => intro rest _; rfl
  | cons c w ih =>
    intro rest h
    have hih : saveEscapedPipes (escapedPipes w ++ rest) = saved w ++ saveEscapedPipes rest := by
      apply ih
      rcases h with h | ⟨h1, h2⟩
      · exact .inl h
      · cases w with
        | nil => exact .inr ⟨by simp, h2⟩
        | cons d w => exact .inr ⟨by simpa using h1, h2⟩
    rw [escapedPipes_cons, saved_cons]
    by_cases hc : c = c!"|"
    · subst hc
      rw [if_pos rfl, if_pos rfl, List.append_assoc, List.append_assoc, ← hih]
      show replacePair _ _ _ (c!"\\" :: c!"|" :: (escapedPipes w ++ rest)) = _
      conv => lhs; unfold replacePair
      rw [if_pos ⟨rfl, rfl⟩]
      rfl
    · rw [if_neg hc, if_neg hc, List.append_assoc, List.append_assoc, ← hih]
      apply replacePair_skip
      rintro y l' hl ⟨rfl, rfl⟩
      cases hw : escapedPipes w with
      | cons x z =>
        rw [hw] at hl
        cases hl
        exact escapedPipes_head w _ _ hw rfl
      | nil =>
        have hw0 : w = [] := by
          cases w with
          | nil => rfl
          | cons a w => rw [escapedPipes_cons] at hw; split at hw <;> cases hw
        subst hw0
        rcases h with h | ⟨h, _⟩
        · rw [h] at hl; cases hl
        · exact h rfl

theorem replace_saved (w : Bytes) (h : (0 : UInt8) ∉ w) : replaceSavedPipes (saved w) = w := by
  induction w with
  | nil => rfl
  | cons c w ih =>
    rw [List.mem_cons, not_or] at h
    have hih := ih h.2
    rw [saved_cons]
    by_cases hc : c = c!"|"
    · subst hc
      rw [if_pos rfl]
      show replacePair 0 0 _ (0 :: 0 :: saved w) = _
      conv => lhs; unfold replacePair
      rw [if_pos ⟨rfl, rfl⟩]
      show c!"|" :: replaceSavedPipes (saved w) = _
      rw [hih]
    · rw [if_neg hc]
      show replacePair 0 0 _ (c :: saved w) = _
      rw [replacePair_skip _ _ _ _ _ (by rintro y l hl ⟨rfl, _⟩; exact h.1 rfl)]
      show c :: replaceSavedPipes (saved w) = _
      rw [hih]

theorem saved_no_pipe (w : Bytes) : c!"|" ∉ saved w := by
  unfold saved
  rw [List.mem_flatMap]
  rintro ⟨c, _, h⟩
  split at h
  · simp at h
  · rename_i hc; exact hc (List.mem_singleton.mp h).symm

theorem splitAll_none (s : Bytes) (h : c!"|" ∉ s) : splitAll c!"|" s = [s] := by
  induction s with
  | nil => rfl
  | cons c s ih =>
    rw [List.mem_cons, not_or] at h
    unfold splitAll
    rw [if_neg (fun e => h.1 e.symm), ih h.2]

theorem splitAll_sep (a s : Bytes) (h : c!"|" ∉ a) : splitAll c!"|" (a ++ c!"|" :: s) = a :: splitAll c!"|" s := by
  induction a with
  | nil => show splitAll c!"|" (c!"|" :: s) = _; conv => lhs; unfold splitAll
           rw [if_pos rfl]
  | cons c a ih =>
    rw [List.mem_cons, not_or] at h
    rw [List.cons_append]
    conv => lhs; unfold splitAll
    rw [if_neg (fun e => h.1 e.symm), ih h.2]

theorem split_written : ∀ (ws : List Bytes), Writable ws →
    (splitAll c!"|" (saveEscapedPipes (written ws))).map replaceSavedPipes = ws
  | [], h => nomatch h
  | [w], h => by
    have := save_escaped w [] (.inl rfl)
    rw [List.append_nil] at this
    show (splitAll c!"|" (saveEscapedPipes (escapedPipes w))).map replaceSavedPipes = _
    rw [this, show saveEscapedPipes [] = [] from rfl, List.append_nil, splitAll_none _ (saved_no_pipe w)]
    simp [replace_saved w h]
  | w :: v :: ws, h => by
    obtain ⟨h1, h2, h3⟩ := h
    show (splitAll c!"|" (saveEscapedPipes (escapedPipes w ++ c!"|" :: written (v :: ws)))).map replaceSavedPipes = _
    rw [save_escaped w _ (.inr ⟨h2, _, rfl⟩)]
    have : saveEscapedPipes (c!"|" :: written (v :: ws)) = c!"|" :: saveEscapedPipes (written (v :: ws)) :=
      replacePair_skip _ _ _ _ _ (by rintro y l _ ⟨h, _⟩; exact absurd h (by decide))
    rw [this, splitAll_sep _ _ (saved_no_pipe w), List.map_cons, split_written (v :: ws) h3, replace_saved w h1]

/-- **C37 (a line of a command file).** A line in which the arguments are written one after the other, surrounded by any white space,
gives exactly these arguments; if the second is `*`, the labels of the command line take the place of the targets. The text must
not itself begin or end with white space, nor begin with `#`. -/
theorem C37_line (labels : List Bytes) (ws : List Bytes) (pre post : Bytes) (hw : Writable ws)
    (hpre : ∀ c ∈ pre, c = 32 ∨ 9 ≤ c ∧ c ≤ 13) (hpost : ∀ c ∈ post, c = 32 ∨ 9 ≤ c ∧ c ≤ 13)
    (hne : written ws ≠ []) (hfirst : ∀ c, (written ws).head? = some c → c ≠ c!"#" ∧ ¬ (c = 32 ∨ 9 ≤ c ∧ c ≤ 13))
    (hlast : ∀ c, (written ws).getLast? = some c → ¬ (c = 32 ∨ 9 ≤ c ∧ c ≤ 13)) :
    lineArgs labels (pre ++ written ws ++ post) =
      some (match ws with | a :: b :: _ => if b = b!"*" then a :: labels else ws | _ => ws) := by
  have hsp : ∀ c, isSpaceByte c = true ↔ (c = 32 ∨ 9 ≤ c ∧ c ≤ 13) := by
    intro c; simp [isSpaceByte]
  have drop : ∀ (p s : Bytes), (∀ c ∈ p, isSpaceByte c = true) → (∀ c, s.head? = some c → isSpaceByte c = false) →
      (p ++ s).dropWhile isSpaceByte = s := by
    intro p s hp hs
    induction p with
    | nil =>
      cases s with
      | nil => rfl
      | cons c s => rw [List.nil_append, List.dropWhile_cons, if_neg (by rw [hs c rfl]; simp)]
    | cons c p ih =>
      rw [List.cons_append, List.dropWhile_cons, if_pos (hp c (by simp))]
      exact ih fun c hc => hp c (by simp [hc])
  have htrim : trimSpace (pre ++ written ws ++ post) = written ws := by
    unfold trimSpace
    rw [List.append_assoc, drop pre _ (fun c hc => (hsp c).mpr (hpre c hc)), List.reverse_append, drop post.reverse, List.reverse_reverse]
    · intro c hc; exact (hsp c).mpr (hpost c (by simpa using hc))
    · intro c hc
      rw [List.head?_reverse] at hc
      have := hlast c hc
      rw [← hsp] at this
      simpa using this
    · intro c hc
      cases hwr : written ws with
      | nil => exact absurd hwr hne
      | cons d l =>
        rw [hwr] at hc
        have := (hfirst d (by rw [hwr]; rfl)).2
        rw [← hsp] at this
        simp at hc
        rw [← hc]
        simpa using this
  unfold lineArgs
  rw [htrim]
  cases hwr : written ws with
  | nil => exact absurd hwr hne
  | cons d l =>
    dsimp only
    rw [if_neg (hfirst d (by rw [hwr]; rfl)).1, ← hwr, split_written ws hw]
    cases ws with
    | nil => rfl
    | cons a ws =>
      cases ws with
      | nil => rfl
      | cons b ws =>
        dsimp only
        split <;> rfl

/-! ### commands and targets -/

/-- **C37 (commands and targets).** The arguments that begin with the name of a command are the commands, split into words, in order;
the others are the targets; a blank argument is an error. -/
theorem C37_parse_commands (known : Bytes → Bool) (args : List Bytes) :
    ((∃ a ∈ args, ∀ c ∈ a, Blank c) ∧ parseCommands known args = none) ∨
    ((¬ ∃ a ∈ args, ∀ c ∈ a, Blank c) ∧ ∃ cs ts, parseCommands known args = some (cs, ts) ∧
      ts = args.filter (fun a => !(splitOnSpaces a).head?.any known) ∧
      (∀ (i : Nat) c, cs[i]? = some c ↔ ∃ a, (args.filter (fun a => (splitOnSpaces a).head?.any known))[i]? = some a ∧ Spelling a c)) := by
  have hempty : ∀ a, splitOnSpaces a = [] ↔ ∀ c ∈ a, Blank c := by
    intro a
    rw [C37_split_iff]
    constructor
    · intro h
      generalize hws : ([] : List Bytes) = ws at h
      induction h with
      | nil => intro c hc; cases hc
      | blank c s ws hc _ ih =>
        intro d hd
        rcases List.mem_cons.mp hd with rfl | hd
        · exact hc
        · exact ih hws d hd
      | last => cases hws
      | word => cases hws
    · intro h
      induction a with
      | nil => exact .nil
      | cons c a ih => exact .blank _ _ _ (h c (by simp)) (ih fun d hd => h d (by simp [hd]))
  have main : ((∃ a ∈ args, splitOnSpaces a = []) ∧ parseCommands known args = none) ∨
      ((¬ ∃ a ∈ args, splitOnSpaces a = []) ∧ parseCommands known args =
        some ((args.filter fun a => (splitOnSpaces a).head?.any known).map splitOnSpaces,
          args.filter fun a => !(splitOnSpaces a).head?.any known)) := by
    induction args with
    | nil => exact .inr ⟨by simp, rfl⟩
    | cons a args ih =>
      unfold parseCommands
      cases hs : splitOnSpaces a with
      | nil => exact .inl ⟨⟨a, by simp, hs⟩, rfl⟩
      | cons w ws =>
        rcases ih with ⟨⟨b, hb, he⟩, h⟩ | ⟨hn, h⟩
        · exact .inl ⟨⟨b, by simp [hb], he⟩, by rw [h]⟩
        · refine .inr ⟨?_, ?_⟩
          · rintro ⟨b, hb, he⟩
            rcases List.mem_cons.mp hb with rfl | hb
            · rw [hs] at he; cases he
            · exact hn ⟨b, hb, he⟩
          · rw [h]
            dsimp only
            cases hk : known w <;> simp [hs, hk]
  simp only [hempty] at main
  rcases main with h | ⟨h1, h2⟩
  · exact .inl h
  · refine .inr ⟨h1, _, _, h2, rfl, ?_⟩
    intro i c
    rw [List.getElem?_map, Option.map_eq_some_iff]
    exact exists_congr fun a => and_congr_right fun _ => C37_split_iff a c

/-- **C37 (commands of a file).** After appending, every file has its commands from before followed by one entry for each
occurrence among the build files of the targets, in order; files stay distinct. -/
theorem C37_append_commands (files : Bytes → List Bytes) (m : List (Bytes × List (Bytes × List (List Bytes)))) (cs : List (List Bytes))
    (targets : List Bytes) (hm : (m.map (·.1)).Nodup) :
    ((appendCommands files m cs targets).map (·.1)).Nodup ∧
    ∀ f, ((appendCommands files m cs targets).lookup f).getD [] = (m.lookup f).getD [] ++
      (targets.flatMap fun t => (files t).flatMap fun g => if g = f then [(t, cs)] else []) := by
  have look : ∀ (m : List (Bytes × List (Bytes × List (List Bytes)))) (g f : Bytes) c,
      ((appendCommand m g c).lookup f).getD [] = (m.lookup f).getD [] ++ (if g = f then [c] else []) := by
    intro m g f c
    unfold appendCommand
    split
    · rename_i h
      have : ∀ m : List (Bytes × List (Bytes × List (List Bytes))),
          (m.map fun p => if p.1 = g then (p.1, p.2 ++ [c]) else p).lookup f =
            (m.lookup f).map fun l => if g = f then l ++ [c] else l := by
        intro m
        induction m with
        | nil => rfl
        | cons p m ih =>
          rw [List.map_cons]
          by_cases hpf : f = p.1
          · by_cases hpg : p.1 = g
            · subst hpg; subst hpf; obtain ⟨k, v⟩ := p; simp [List.lookup_cons]
            · have : ¬ g = p.1 := fun e => hpg e.symm
              subst hpf; obtain ⟨k, v⟩ := p; simp_all [List.lookup_cons]
          · have hb : (f == p.1) = false := by simpa using hpf
            by_cases hpg : p.1 = g
            · rw [if_pos hpg, List.lookup_cons, List.lookup_cons, hb]; exact ih
            · rw [if_neg hpg, List.lookup_cons, List.lookup_cons, hb]; exact ih
      rw [this]
      by_cases hgf : g = f
      · subst hgf
        have : ∃ l, m.lookup g = some l := by
          clear this
          induction m with
          | nil => simp at h
          | cons p m ih =>
            rw [List.lookup_cons]
            by_cases hpg : g = p.1
            · simp [hpg]
            · have hb : (g == p.1) = false := by simpa using hpg
              rw [hb]
              apply ih
              simpa [show ¬ p.1 = g from fun e => hpg e.symm] using h
        obtain ⟨l, hl⟩ := this
        simp [hl]
      · simp only [hgf, if_false, List.append_nil]
        cases m.lookup f <;> rfl
    · rename_i h
      rw [List.lookup_append]
      by_cases hgf : g = f
      · subst hgf
        have : m.lookup g = none := by
          rw [List.lookup_eq_none_iff]
          intro p hp
          simp only [List.any_eq_true, not_exists, not_and, decide_eq_true_eq] at h
          simpa using fun e => h p hp e.symm
        simp [this]
      · have : (f == g) = false := by simpa using fun e => hgf e.symm
        simp [List.lookup_cons, this, hgf]
  have nod : ∀ (m : List (Bytes × List (Bytes × List (List Bytes)))) g c, (m.map (·.1)).Nodup → ((appendCommand m g c).map (·.1)).Nodup := by
    intro m g c h
    unfold appendCommand
    split
    · have : (m.map fun p => if p.1 = g then (p.1, p.2 ++ [c]) else p).map (·.1) = m.map (·.1) := by
        rw [List.map_map]
        apply List.map_congr_left
        intro p _
        show (if p.1 = g then (p.1, p.2 ++ [c]) else p).1 = p.1
        split <;> rfl
      rwa [this]
    · rename_i h'
      rw [List.map_append, List.nodup_append]
      refine ⟨h, by simp, ?_⟩
      rintro a ha b hb rfl
      simp only [List.map_cons, List.map_nil, List.mem_singleton] at hb
      subst hb
      obtain ⟨p, hp, rfl⟩ := List.mem_map.mp ha
      exact h' (List.any_eq_true.mpr ⟨p, hp, by simp⟩)
  have inner : ∀ (t : Bytes) (fs : List Bytes) (m : List (Bytes × List (Bytes × List (List Bytes)))), (m.map (·.1)).Nodup →
      ((fs.foldl (fun m f => appendCommand m f (t, cs)) m).map (·.1)).Nodup ∧
      ∀ f, ((fs.foldl (fun m f => appendCommand m f (t, cs)) m).lookup f).getD [] = (m.lookup f).getD [] ++
        fs.flatMap fun g => if g = f then [(t, cs)] else [] := by
    intro t fs
    induction fs with
    | nil => intro m h; exact ⟨h, by simp⟩
    | cons g fs ih =>
      intro m h
      obtain ⟨h1, h2⟩ := ih (appendCommand m g (t, cs)) (nod m g _ h)
      refine ⟨h1, fun f => ?_⟩
      rw [List.foldl_cons, h2 f, look, List.flatMap_cons, List.append_assoc]
  unfold appendCommands
  induction targets generalizing m with
  | nil => exact ⟨hm, by simp⟩
  | cons t targets ih =>
    obtain ⟨h1, h2⟩ := inner t (files t) m hm
    obtain ⟨h3, h4⟩ := ih _ h1
    refine ⟨h3, fun f => ?_⟩
    rw [List.foldl_cons, h4 f, h2 f, List.flatMap_cons, List.append_assoc]

/-- **C37 (files of commands).** Each line of a file of commands is treated on its own, in order: reading the lines `lines` is reading each of
them, without those that are skipped. -/
theorem C37_lines (labels : List Bytes) (lines : List Bytes) (hne : lines ≠ []) (h : ∀ l ∈ lines, c!"\n" ∉ l) :
    readCommands labels (joinWith c!"\n" lines) = (lines.map (lineArgs labels)).filterMap id := by
  unfold readCommands
  rw [splitAll_joinWith _ _ hne h, List.filterMap_map]
  rfl

/-! #### cases -/

example : readCommands [b!"//x"] b!"new cc_library a|*\n# comment\n\ndelete|//y" = [[b!"new cc_library a", b!"//x"], [b!"delete", b!"//y"]] := by decide
example : splitOnSpaces b!" add deps\\ x //a:b  c\\\\ d\\n" = [b!"add", b!"deps x", b!"//a:b", b!"c\\ d\\n"] := by decide
example : Spelling b!"a b\\" [b!"a", b!"b\\"] := (C37_split_iff _ _).mp (by decide)
example : lineArgs [b!"//x"] b!" set a \\| b|*\r" = some [b!"set a | b", b!"//x"] := by decide
example : Writable [b!"set a | b", b!"//a:b\\c"] := by simp [Writable]
example : parseCommands (· == b!"add") [b!"add deps x", b!"//a:b"] = some ([[b!"add", b!"deps", b!"x"]], [b!"//a:b"]) := by decide

end Verif.Props.Split
