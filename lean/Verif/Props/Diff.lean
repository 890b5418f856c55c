import Verif.Model.Diff
/-
Property theorems C08, C09 (suggested fixes).
-/
namespace Verif.Props.Diff
open Verif Verif.Diff

theorem cpl_le (a b : Bytes) : commonPrefixLen a b ≤ a.length ∧ commonPrefixLen a b ≤ b.length := by
  fun_induction commonPrefixLen a b <;> simp_all

theorem cpl_take (a b : Bytes) : a.take (commonPrefixLen a b) = b.take (commonPrefixLen a b) := by
  fun_induction commonPrefixLen a b <;> simp_all

theorem cpl_max (a b : Bytes) (h1 : commonPrefixLen a b < a.length) (h2 : commonPrefixLen a b < b.length) :
    a[commonPrefixLen a b]? ≠ b[commonPrefixLen a b]? := by
  fun_induction commonPrefixLen a b with
  | case1 => simp_all
  | case2 => simp_all
  | case3 a b hne =>
    cases a with
    | nil => simp at h1
    | cons x a => cases b with
      | nil => simp at h2
      | cons y b => exact absurd rfl (hne x a y b rfl)

theorem take_of_take {a b : Bytes} {n k : Nat} (h : a.take n = b.take n) (hk : k ≤ n) : a.take k = b.take k := by
  have := congrArg (List.take k) h
  rwa [List.take_take, List.take_take, Nat.min_eq_left hk] at this

/-- a shorter common suffix is a common suffix -/
theorem suffix_of {a b : Bytes} {k : Nat} (hk : k ≤ commonSuffixLen a b) :
    a.drop (a.length - k) = b.drop (b.length - k) := by
  have h := take_of_take (cpl_take a.reverse b.reverse) hk
  rw [List.take_reverse, List.take_reverse] at h
  exact List.reverse_inj.1 h

/-- The suffix length the function settles on. -/
def finalSuffix (old new : Bytes) : Nat :=
  let p := commonPrefixLen old new
  let s := commonSuffixLen old new
  let s := if p + s > old.length then old.length - p else s
  if p + s > new.length then new.length - p else s

theorem finalSuffix_eq (old new : Bytes) : finalSuffix old new =
    min (commonSuffixLen old new) (min (old.length - commonPrefixLen old new) (new.length - commonPrefixLen old new)) := by
  have h := cpl_le old new
  unfold finalSuffix
  simp only
  split <;> split <;> omega

theorem calc_eq (old new : Bytes) : calculateDifference old new =
    (commonPrefixLen old new, old.length - finalSuffix old new,
     (new.drop (commonPrefixLen old new)).take (new.length - finalSuffix old new - commonPrefixLen old new)) := rfl

/-- C08: replacing the bytes `[start, end)` of the old contents by the suggested text gives exactly the new
contents, and the range is always valid. -/
theorem C08_difference_exact (old new : Bytes) :
    let (start, stop, replacement) := calculateDifference old new
    old.take start ++ replacement ++ old.drop stop = new ∧ start ≤ stop ∧ stop ≤ old.length := by
  rw [calc_eq]
  simp only
  have h := cpl_le old new
  have hf := finalSuffix_eq old new
  have hs : finalSuffix old new ≤ commonSuffixLen old new := by omega
  have hsuf := suffix_of hs
  generalize finalSuffix old new = s at *
  have hp := cpl_take old new
  generalize commonPrefixLen old new = p at *
  refine ⟨?_, by omega, by omega⟩
  rw [hp, hsuf]
  rw [← List.drop_take]
  calc new.take p ++ (new.take (new.length - s) |>.drop p) ++ new.drop (new.length - s)
      = new.take (new.length - s) ++ new.drop (new.length - s) := by
        congr 1
        have := List.take_append_drop p (new.take (new.length - s))
        rw [List.take_take, Nat.min_eq_left (by omega)] at this
        exact this
    _ = new := List.take_append_drop _ _

/-- C08: the suggestion is tight: it starts at the first differing byte, and, if it both deletes and inserts text,
the last deleted and last inserted bytes differ. Equal contents give an empty edit at the end. -/
theorem C08_difference_tight (old new : Bytes) :
    let (start, stop, replacement) := calculateDifference old new
    (∀ i, i < start → old[i]? = new[i]?) ∧
    (start < old.length → start < new.length → old[start]? ≠ new[start]?) ∧
    (start < stop → replacement ≠ [] → old[stop - 1]? ≠ replacement.getLast?) := by
  rw [calc_eq]
  simp only
  have h := cpl_le old new
  have hf := finalSuffix_eq old new
  refine ⟨?_, cpl_max old new, ?_⟩
  · intro i hi
    have := congrArg (fun l : Bytes => l[i]?) (cpl_take old new)
    simpa [List.getElem?_take, hi] using this
  · intro h1 h2
    have hmax := cpl_max old.reverse new.reverse
    simp only [List.length_reverse] at hmax
    have h2' : finalSuffix old new + commonPrefixLen old new < new.length := by
      apply Classical.byContradiction
      intro hc
      apply h2
      have : new.length - finalSuffix old new - commonPrefixLen old new = 0 := by omega
      rw [this]; simp
    have hse : finalSuffix old new = commonSuffixLen old new := by omega
    have hm := hmax (by show commonSuffixLen old new < _; omega) (by show commonSuffixLen old new < _; omega)
    change old.reverse[commonSuffixLen old new]? ≠ new.reverse[commonSuffixLen old new]? at hm
    rw [List.getElem?_reverse (by omega), List.getElem?_reverse (by omega)] at hm
    rw [List.getLast?_eq_getElem?, List.length_take, List.length_drop]
    rw [List.getElem?_take, if_pos (by omega), List.getElem?_drop]
    rw [hse]
    rw [show old.length - commonSuffixLen old new - 1 = old.length - 1 - commonSuffixLen old new by omega]
    rw [show commonPrefixLen old new +
      (min (new.length - commonSuffixLen old new - commonPrefixLen old new) (new.length - commonPrefixLen old new) - 1)
      = new.length - 1 - commonSuffixLen old new by omega]
    exact hm

example : calculateDifference b!"abc" b!"abdbc" = (2, 2, b!"db") := by decide
example : calculateDifference b!"aaa" b!"aa" = (2, 3, b!"") := by decide

/-- The value a slot has after all replacements: the last replacement of that slot, or the original. -/
def lastReplacement {V : Type} (h : Heap V) (rs : List (Nat × V)) (a : Nat) : V :=
  match rs.reverse.find? (fun r => r.1 == a) with
  | some r => r.2
  | none => h a

theorem applyFixes_heap {V : Type} (rs : List (Nat × V)) (h : Heap V) (ds : List (Nat × V)) (a : Nat) :
    (applyFixes h ds rs).1 a = lastReplacement h rs a := by
  induction rs generalizing h ds with
  | nil => rfl
  | cons r rs ih =>
    obtain ⟨addr, v⟩ := r
    simp only [applyFixes]
    rw [ih]
    unfold lastReplacement
    rw [List.reverse_cons, List.find?_append]
    cases hf : rs.reverse.find? (fun r => r.1 == a) with
    | some r => simp
    | none =>
      by_cases ha : addr = a
      · subst ha; simp [Heap.set]
      · have : a ≠ addr := fun e => ha e.symm
        simp [Heap.set, ha, this]

theorem runDefers_append {V : Type} (h : Heap V) (d1 d2 : List (Nat × V)) :
    runDefers h (d1 ++ d2) = runDefers (runDefers h d1) d2 := by
  induction d1 generalizing h with
  | nil => rfl
  | cons d d1 ih => obtain ⟨a, v⟩ := d; simp [runDefers, ih]

theorem applyFixes_defers {V : Type} (rs : List (Nat × V)) (h : Heap V) (ds : List (Nat × V)) :
    ∃ new, (applyFixes h ds rs).2 = new ++ ds ∧
      ∀ (g : Heap V) (a : Nat), runDefers g new a = if a ∈ rs.map (·.1) then h a else g a := by
  induction rs generalizing h ds with
  | nil => exact ⟨[], rfl, fun g a => by simp [runDefers]⟩
  | cons r rs ih =>
    obtain ⟨addr, v⟩ := r
    obtain ⟨new, h1, h2⟩ := ih (h.set addr v) ((addr, h addr) :: ds)
    refine ⟨new ++ [(addr, h addr)], by simp [applyFixes, h1], fun g a => ?_⟩
    rw [runDefers_append]
    simp only [runDefers, Heap.set]
    by_cases ha : a = addr
    · subst ha; simp
    · rw [if_neg ha, h2]
      have hm : a ∈ ((addr, v) :: rs).map (·.1) ↔ a ∈ rs.map (·.1) := by
        rw [List.map_cons, List.mem_cons]
        exact ⟨fun h => h.resolve_left ha, .inr⟩
      by_cases hin : a ∈ rs.map (·.1)
      · rw [if_pos hin, if_pos (hm.2 hin)]; simp [Heap.set, ha]
      · rw [if_neg hin, if_neg (fun h => hin (hm.1 h))]

/-- C09: exact effect of suggest mode on the tree, for every replacement list (with any aliasing) and whatever the
formatter does: the text is that of the tree with all replacements applied (the last one wins), and afterwards every
replaced slot holds its original value again; other slots hold what the formatter left there. -/
theorem C09_suggest_effect {V : Type} (format : Heap V → Bytes × Heap V) (h : Heap V) (rs : List (Nat × V)) :
    (formatWithFix format h rs).1 = (format (lastReplacement h rs)).1 ∧
    ∀ a, (formatWithFix format h rs).2 a =
      if a ∈ rs.map (·.1) then h a else (format (lastReplacement h rs)).2 a := by
  have e : (applyFixes h [] rs).1 = lastReplacement h rs := funext fun a => applyFixes_heap rs h [] a
  obtain ⟨new, h1, h2⟩ := applyFixes_defers rs h []
  simp only [List.append_nil] at h1
  unfold formatWithFix
  simp only [e, h1]
  exact ⟨trivial, fun a => h2 _ a⟩

/-- C09: if formatting does not modify slots, the tree is exactly as before, even when several replacements target
the same slot. -/
theorem C09_suggest_rolls_back {V : Type} (format : Heap V → Bytes × Heap V) (hpure : ∀ g, (format g).2 = g)
    (h : Heap V) (rs : List (Nat × V)) : (formatWithFix format h rs).2 = h := by
  funext a
  rw [(C09_suggest_effect format h rs).2 a, hpure]
  split
  · rfl
  · rename_i ha
    unfold lastReplacement
    have : rs.reverse.find? (fun r => r.1 == a) = none := by
      rw [List.find?_eq_none]
      intro r hr hra
      apply ha
      simp only [beq_iff_eq] at hra
      exact List.mem_map.2 ⟨r, by simpa using hr, hra⟩
    rw [this]

/-- C09: exactly when is the tree restored? When the formatter leaves all slots that are not being replaced alone. -/
theorem C09_rolls_back_iff {V : Type} (format : Heap V → Bytes × Heap V) (h : Heap V) (rs : List (Nat × V)) :
    (formatWithFix format h rs).2 = h ↔
      ∀ a, a ∉ rs.map (·.1) → (format (lastReplacement h rs)).2 a = h a := by
  constructor
  · intro e a ha
    have := (C09_suggest_effect format h rs).2 a
    rw [e, if_neg ha] at this
    exact this.symm
  · intro H
    funext a
    rw [(C09_suggest_effect format h rs).2 a]
    split
    · rfl
    · rename_i ha; exact H a ha

/-- C09, finding: `build.Format` runs the rewriter in place, so a formatter that sorts two slots breaks the roll-back:
starting from slots [1, 2], suggesting 3 for slot 0 leaves [1, 3]: the value 2 is lost. -/
theorem C09_rewriting_formatter_witness :
    let sortSlots : Heap Nat → Bytes × Heap Nat := fun g =>
      ([], fun a => if a = 0 then min (g 0) (g 1) else if a = 1 then max (g 0) (g 1) else g a)
    let h : Heap Nat := fun a => a + 1
    ((formatWithFix sortSlots h [(0, 3)]).2 0, (formatWithFix sortSlots h [(0, 3)]).2 1) = (1, 3) := by decide

-- two replacements of the same slot and one of another are all rolled back
example : let h : Heap Nat := fun a => a
    let r := formatWithFix (fun g => ([UInt8.ofNat (g 5), UInt8.ofNat (g 6)], g)) h [(5, 1), (6, 2), (5, 3)]
    r.1 = [3, 2] ∧ r.2 5 = 5 ∧ r.2 6 = 6 := by decide

end Verif.Props.Diff
