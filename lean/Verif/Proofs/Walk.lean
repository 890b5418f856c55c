import Verif.Model.Walk
/- Helper lemmas about traversals. -/
namespace Verif.Walk
open Verif Verif.Syntax

theorem size_pos (e : Expr) : 0 < size e := by
  cases e <;> simp only [size] <;> omega

theorem size_le_sizeL {x : Expr} {l : List Expr} (h : x ∈ l) : size x ≤ sizeL l := by
  induction l with
  | nil => cases h
  | cons y l ih =>
    rw [sizeL]
    cases h with
    | head => omega
    | tail _ h => have := ih h; omega

theorem sizeL_append (a b : List Expr) : sizeL (a ++ b) = sizeL a + sizeL b := by
  induction a with
  | nil => simp [sizeL]
  | cons x a ih => simp [sizeL, ih]; omega

theorem sizeL_interleave_le (f t : List IdentN) : sizeL (interleave f t) ≤ f.length + t.length := by
  induction f generalizing t with
  | nil => simp [interleave, sizeL]
  | cons x f ih =>
    cases t with
    | nil => simp [interleave, sizeL]
    | cons y t => have := ih t; simp [interleave, sizeL, size]; omega

theorem sizeL_slots_lt (v : Expr) : sizeL (slots v) < size v := by
  cases v <;> simp only [slots, size, sizeL, sizeL_append] <;> try omega
  case load f t _ _ => have := sizeL_interleave_le f t; omega

theorem size_slot_lt {x v : Expr} (h : x ∈ slots v) : size x < size v :=
  Nat.lt_of_le_of_lt (size_le_sizeL h) (sizeL_slots_lt v)

/-- Induction over the tree as `WalkOnce` sees it. -/
theorem slot_induction {P : Expr → Prop} (h : ∀ v, (∀ x ∈ slots v, P x) → P v) (v : Expr) : P v := by
  suffices ∀ n v, size v ≤ n → P v from this (size v) v (Nat.le_refl _)
  intro n
  induction n with
  | zero => intro v hv; have := size_pos v; omega
  | succ n ih =>
    intro v hv
    exact h v fun x hx => ih x (by have := size_slot_lt hx; omega)

/-- load statements have as many local names as original names -/
def lenOk : Expr → Prop
  | .load _ _ _ f t .. => f.length = t.length
  | _ => True

instance (v : Expr) : Decidable (lenOk v) := by unfold lenOk; split <;> infer_instance

theorem evens_interleave (f t : List IdentN) (h : f.length = t.length) :
    (evens (interleave f t)).map identOf = f := by
  induction f generalizing t with
  | nil => simp [interleave, evens]
  | cons x f ih =>
    cases t with
    | nil => simp at h
    | cons y t => simp [interleave, evens, identOf]; exact ih t (by simpa using h)

theorem odds_interleave (f t : List IdentN) (h : f.length = t.length) :
    (odds (interleave f t)).map identOf = t := by
  induction f generalizing t with
  | nil => cases t <;> simp_all [interleave, odds]
  | cons x f ih =>
    cases t with
    | nil => simp at h
    | cons y t => simp [interleave, odds, identOf]; exact ih t (by simpa using h)

theorem withSlots_slots (v : Expr) (h : lenOk v) : withSlots v (slots v) = v := by
  cases v <;> simp only [slots, withSlots, List.take_left, List.drop_left]
  case load f t _ _ =>
    rw [evens_interleave f t h, odds_interleave f t h]; rfl

theorem weakSlots_length (v : Expr) : (weakSlots v).length = (slots v).length := by
  cases v <;> simp [weakSlots, slots]

theorem walkN_zero {σ} (f : σ → Expr → List Expr → σ × Bool) (s v stk) : walkN f 0 s v stk = s := rfl

theorem walkN_succ {σ} (f : σ → Expr → List Expr → σ × Bool) (n s v stk) :
    walkN f (n+1) s v stk = if v.isNil then s else
      if (f s v stk).2 then (f s v stk).1
      else (slots v).foldl (fun s x => walkN f n s x (stk ++ [v])) (f s v stk).1 := rfl

theorem foldl_congr_mem {α β} (l : List α) (f g : β → α → β) (s : β)
    (h : ∀ s x, x ∈ l → f s x = g s x) : l.foldl f s = l.foldl g s := by
  induction l generalizing s with
  | nil => rfl
  | cons a l ih =>
    simp only [List.foldl_cons]
    rw [h s a (by simp)]
    exact ih _ (fun s x hx => h s x (by simp [hx]))

/-- the budget is irrelevant once it reaches the size of the tree -/
theorem walkN_fuel {σ} (f : σ → Expr → List Expr → σ × Bool) (v : Expr) :
    ∀ n m s stk, size v ≤ n → size v ≤ m → walkN f n s v stk = walkN f m s v stk := by
  induction v using slot_induction with
  | h v ih =>
    intro n m s stk hn hm
    have hp := size_pos v
    obtain ⟨n, rfl⟩ : ∃ k, n = k + 1 := ⟨n - 1, by omega⟩
    obtain ⟨m, rfl⟩ : ∃ k, m = k + 1 := ⟨m - 1, by omega⟩
    rw [walkN_succ, walkN_succ]
    have : (slots v).foldl (fun s x => walkN f n s x (stk ++ [v])) (f s v stk).1
        = (slots v).foldl (fun s x => walkN f m s x (stk ++ [v])) (f s v stk).1 := by
      apply foldl_congr_mem
      intro s x hx
      have := size_slot_lt hx
      exact ih x hx n m s _ (by omega) (by omega)
    rw [this]

end Verif.Walk
