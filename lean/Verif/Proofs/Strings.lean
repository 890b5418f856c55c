import Verif.Model.Strings
/- Lemmas about `strings.Split` / `strings.Join`. -/
namespace Verif

theorem splitAll_ne_nil (c : UInt8) (s : Bytes) : splitAll c s ≠ [] := by
  cases s with
  | nil => simp [splitAll]
  | cons x s => rw [splitAll]; split; simp; split <;> simp

theorem splitAll_no_sep (c : UInt8) (s : Bytes) : ∀ w ∈ splitAll c s, c ∉ w := by
  induction s with
  | nil => simp [splitAll]
  | cons x s ih =>
    rw [splitAll]
    split
    · intro w hw; rcases List.mem_cons.mp hw with h | h
      · rw [h]; simp
      · exact ih w h
    · rename_i hx
      cases h : splitAll c s with
      | nil => exact absurd h (splitAll_ne_nil c s)
      | cons v vs =>
        rw [h] at ih
        intro w hw
        rcases List.mem_cons.mp hw with hw | hw
        · rw [hw]; intro hc
          rcases List.mem_cons.mp hc with hc | hc
          · exact hx hc.symm
          · exact ih v (by simp) hc
        · exact ih w (by simp [hw])

theorem splitAll_single (c : UInt8) (w : Bytes) (h : c ∉ w) : splitAll c w = [w] := by
  induction w with
  | nil => rfl
  | cons x w ih =>
    simp only [List.mem_cons, not_or] at h
    rw [splitAll, if_neg (fun e => h.1 e.symm), ih h.2]

theorem splitAll_cons_sep (c : UInt8) (w s : Bytes) (h : c ∉ w) : splitAll c (w ++ c :: s) = w :: splitAll c s := by
  induction w with
  | nil => simp [splitAll]
  | cons x w ih =>
    simp only [List.mem_cons, not_or] at h
    rw [List.cons_append, splitAll, if_neg (fun e => h.1 e.symm), ih h.2]

theorem splitAll_joinWith (c : UInt8) (ws : List Bytes) (hne : ws ≠ []) (h : ∀ w ∈ ws, c ∉ w) :
    splitAll c (joinWith c ws) = ws := by
  induction ws with
  | nil => exact absurd rfl hne
  | cons w ws ih =>
    cases ws with
    | nil => exact splitAll_single c w (h w (by simp))
    | cons v vs =>
      show splitAll c (w ++ c :: joinWith c (v :: vs)) = _
      rw [splitAll_cons_sep c w _ (h w (by simp)), ih (by simp) (fun x hx => h x (by simp [hx]))]

theorem joinWith_splitAll' (c : UInt8) (s : Bytes) : joinWith c (splitAll c s) = s := by
  induction s with
  | nil => rfl
  | cons x s ih =>
    rw [splitAll]
    cases h : splitAll c s with
    | nil => exact absurd h (splitAll_ne_nil c s)
    | cons w ws =>
      rw [h] at ih
      by_cases hx : x = c
      · rw [if_pos hx]
        show [] ++ c :: joinWith c (w :: ws) = _
        rw [ih, hx]; rfl
      · rw [if_neg hx]
        cases ws with
        | nil => simp only [joinWith] at *; rw [ih]
        | cons v vs => simp only [joinWith, List.cons_append] at *; rw [ih]

end Verif
