import Verif.Model.Sort
/- Lemmas about orders and sorting. -/
namespace Verif

theorem TotalBy.asymm {α κ : Type} {key : α → κ} {less : α → α → Bool} (h : TotalBy key less) {a b : α}
    (hab : less a b = true) : less b a = false := by
  cases hb : less b a with
  | false => rfl
  | true => have := h.trans a b a hab hb; rw [h.irrefl] at this; cases this

theorem StrictWeak.asymm {α : Type} {less : α → α → Bool} (h : StrictWeak less) {a b : α}
    (hab : less a b = true) : less b a = false := by
  cases hb : less b a with
  | false => rfl
  | true => have := h.trans a b a hab hb; rw [h.irrefl] at this; cases this

theorem lexLess_total {α : Type} [DecidableEq α] {lt : α → α → Bool} (h : TotalBy id lt) :
    TotalBy id (lexLess lt) where
  irrefl := by intro a; induction a with
    | nil => rfl
    | cons x a ih => simp [lexLess, ih]
  trans := by
    intro a
    induction a with
    | nil =>
      intro b c hab hbc
      cases b with
      | nil => exact hbc
      | cons y b => cases c with
        | nil => simp [lexLess] at hbc
        | cons z c => rfl
    | cons x a ih =>
      intro b c hab hbc
      cases b with
      | nil => simp [lexLess] at hab
      | cons y b => cases c with
        | nil => simp [lexLess] at hbc
        | cons z c =>
          simp only [lexLess] at *
          by_cases hxy : x = y
          · subst hxy
            by_cases hxz : x = z
            · subst hxz; simp only [if_true] at *; exact ih b c hab hbc
            · simp only [if_true, if_neg hxz] at *; exact hbc
          · by_cases hyz : y = z
            · subst hyz; simp only [if_neg hxy] at *; exact hab
            · rw [if_neg hxy] at hab; rw [if_neg hyz] at hbc
              have := h.trans x y z hab hbc
              have hxz : x ≠ z := by
                intro e; subst e; rw [h.irrefl] at this; cases this
              rw [if_neg hxz]; exact this
  total := by
    intro a
    induction a with
    | nil => intro b hb; cases b with
      | nil => exact absurd rfl hb
      | cons y b => exact Or.inl rfl
    | cons x a ih =>
      intro b hb
      cases b with
      | nil => exact Or.inr rfl
      | cons y b =>
        simp only [lexLess]
        by_cases hxy : x = y
        · subst hxy; simp only [if_true]; exact ih b (by intro e; exact hb (by simpa using e))
        · rw [if_neg hxy, if_neg (Ne.symm hxy)]; exact h.total x y hxy

theorem byteLess_total : TotalBy id (fun x y : UInt8 => decide (x < y)) where
  irrefl := by intro a; simp
  trans := by intro a b c; simp [UInt8.lt_iff_toNat_lt]; omega
  total := by
    intro a b h
    simp only [decide_eq_true_eq, UInt8.lt_iff_toNat_lt]
    have : a.toNat ≠ b.toNat := fun e => h (UInt8.toNat_inj.mp e)
    omega

theorem strLess_total : TotalBy id strLess := lexLess_total byteLess_total

theorem natLess_total : TotalBy id (fun x y : Nat => decide (x < y)) where
  irrefl := by intro a; simp
  trans := by intro a b c; simp; omega
  total := by intro a b h; simp only [decide_eq_true_eq]; simp only [id, ne_eq] at h; omega

theorem intLess_total : TotalBy id (fun x y : Int => decide (x < y)) where
  irrefl := by intro a; simp
  trans := by intro a b c; simp; omega
  total := by intro a b h; simp only [decide_eq_true_eq]; simp only [id, ne_eq] at h; omega

/-- lexicographic combination: compare `k1` first, then `less2` -/
theorem TotalBy.lex {α κ1 κ2 : Type} [DecidableEq κ1] {k1 : α → κ1} {lt1 : κ1 → κ1 → Bool} {k2 : α → κ2}
    {less2 : α → α → Bool} (h1 : TotalBy id lt1) (h2 : TotalBy k2 less2) :
    TotalBy (fun a => (k1 a, k2 a)) (fun a b => if k1 a ≠ k1 b then lt1 (k1 a) (k1 b) else less2 a b) where
  irrefl := by intro a; simp [h2.irrefl]
  trans := by
    intro a b c hab hbc
    by_cases e1 : k1 a = k1 b <;> by_cases e2 : k1 b = k1 c
    · simp only [e1, e2, ne_eq, not_true, if_false] at *; exact h2.trans a b c hab hbc
    · simp only [e1, e2, ne_eq, not_true, if_false, not_false_iff, if_true] at *; exact hbc
    · rw [e2] at hab e1; simp only [ne_eq, e1, e2, not_true, if_false, not_false_iff, if_true] at *; exact hab
    · simp only [ne_eq, e1, e2, not_false_iff, if_true] at hab hbc
      have := h1.trans _ _ _ hab hbc
      have e3 : k1 a ≠ k1 c := by
        intro e; rw [e, h1.irrefl] at this; cases this
      simp only [ne_eq, e3, not_false_iff, if_true]; exact this
  total := by
    intro a b h
    by_cases e : k1 a = k1 b
    · simp only [e, ne_eq, not_true, if_false]
      exact h2.total a b (fun e2 => h (by simp [e, e2]))
    · have e' : ¬ k1 b = k1 a := fun x => e x.symm
      simp only [ne_eq, e, e', not_false_iff, if_true]
      exact h1.total _ _ e

theorem TotalBy.comap {α β κ : Type} {key : β → κ} {less : β → β → Bool} (h : TotalBy key less) (g : α → β) :
    TotalBy (fun a => key (g a)) (fun a b => less (g a) (g b)) where
  irrefl _ := h.irrefl _
  trans _ _ _ := h.trans _ _ _
  total _ _ := h.total _ _

theorem TotalBy.strictWeak {α κ : Type} {key : α → κ} {less : α → α → Bool} (h : TotalBy key less)
    (hk : ∀ a b c, key a = key b → less a c = less b c ∧ less c a = less c b) : StrictWeak less where
  irrefl := h.irrefl
  trans := h.trans
  incomp := by
    intro a b c h1 h2 h3 h4
    have e1 : key a = key b := by
      apply Classical.byContradiction; intro e
      rcases h.total a b e with x | x <;> simp_all
    have := hk a b c e1
    rw [this.1, this.2]; exact ⟨h3, h4⟩

/-! ### sorting -/

theorem insertBy_perm {α : Type} (less : α → α → Bool) (x : α) (l : List α) :
    (insertBy less x l).Perm (x :: l) := by
  induction l with
  | nil => exact List.Perm.refl _
  | cons y l ih =>
    rw [insertBy]
    split
    · exact (List.Perm.cons y ih).trans (List.Perm.swap x y l)
    · exact List.Perm.refl _

theorem sortBy_perm {α : Type} (less : α → α → Bool) (l : List α) : (sortBy less l).Perm l := by
  induction l with
  | nil => exact List.Perm.refl _
  | cons x l ih => exact (insertBy_perm less x _).trans (List.Perm.cons x ih)

/-- what is needed of the comparison for sortedness to be transitive along the list -/
theorem insertBy_sorted {α : Type} {less : α → α → Bool} (h : StrictWeak less) (x : α) (l : List α)
    (hl : Sorted less l) : Sorted less (insertBy less x l) := by
  induction l with
  | nil => simp [insertBy, Sorted]
  | cons y l ih =>
    rw [insertBy]
    unfold Sorted at hl
    rw [List.pairwise_cons] at hl
    by_cases hyx : less y x = true
    · rw [if_pos hyx]
      unfold Sorted
      rw [List.pairwise_cons]
      refine ⟨?_, ih hl.2⟩
      intro z hz
      rcases List.mem_cons.mp ((insertBy_perm less x l).mem_iff.mp hz) with rfl | hz
      · exact h.asymm hyx
      · exact hl.1 z hz
    · rw [if_neg hyx]
      simp only [Bool.not_eq_true] at hyx
      unfold Sorted
      rw [List.pairwise_cons]
      refine ⟨?_, List.pairwise_cons.mpr hl⟩
      intro z hz
      rcases List.mem_cons.mp hz with rfl | hz
      · exact hyx
      · have hzy := hl.1 z hz
        cases hzx : less z x with
        | false => rfl
        | true =>
          -- z < x, not y < x, not z < y
          by_cases hyz : less y z = true
          · have := h.trans _ _ _ hyz hzx; rw [hyx] at this; cases this
          · simp only [Bool.not_eq_true] at hyz
            by_cases hxy : less x y = true
            · have := h.trans _ _ _ hzx hxy; rw [hzy] at this; cases this
            · simp only [Bool.not_eq_true] at hxy
              have := h.incomp z y x hzy hyz hyx hxy
              rw [this.1] at hzx; cases hzx

theorem sortBy_sorted {α : Type} {less : α → α → Bool} (h : StrictWeak less) (l : List α) :
    Sorted less (sortBy less l) := by
  induction l with
  | nil => exact List.Pairwise.nil
  | cons x l ih => exact insertBy_sorted h x _ ih

theorem sortBy_sortedPerm {α : Type} {less : α → α → Bool} (h : StrictWeak less) (l : List α) :
    SortedPerm less l (sortBy less l) := ⟨sortBy_perm less l, sortBy_sorted h l⟩

theorem insertBy_of_sorted_head {α : Type} {less : α → α → Bool} (x : α) (l : List α)
    (h : ∀ y ∈ l, less y x = false) : insertBy less x l = x :: l := by
  cases l with
  | nil => rfl
  | cons y l => rw [insertBy, if_neg (by rw [h y (by simp)]; simp)]

theorem sortBy_of_sorted {α : Type} {less : α → α → Bool} (l : List α) (h : Sorted less l) :
    sortBy less l = l := by
  induction l with
  | nil => rfl
  | cons x l ih =>
    unfold Sorted at h; rw [List.pairwise_cons] at h
    rw [sortBy, ih h.2, insertBy_of_sorted_head x l h.1]

theorem isSorted_iff {α : Type} {less : α → α → Bool} (h : StrictWeak less) (l : List α) :
    isSorted less l = true ↔ Sorted less l := by
  induction l with
  | nil => simp [isSorted, Sorted]
  | cons a l ih =>
    cases l with
    | nil => simp [isSorted, Sorted]
    | cons b l =>
      rw [isSorted]
      simp only [Bool.and_eq_true, Bool.not_eq_true', ih]
      unfold Sorted at *
      rw [List.pairwise_cons (a := a)]
      constructor
      · rintro ⟨h1, h2⟩
        refine ⟨?_, h2⟩
        intro z hz
        rcases List.mem_cons.mp hz with rfl | hz
        · exact h1
        · have hzb := (List.pairwise_cons.mp h2).1 z hz
          cases hza : less z a with
          | false => rfl
          | true =>
            by_cases hbz : less b z = true
            · have := h.trans _ _ _ hbz hza; rw [h1] at this; cases this
            · simp only [Bool.not_eq_true] at hbz
              by_cases hab : less a b = true
              · have := h.trans _ _ _ hza hab; rw [hzb] at this; cases this
              · simp only [Bool.not_eq_true] at hab
                have := h.incomp z b a hzb hbz h1 hab
                rw [this.1] at hza; cases hza
      · rintro ⟨h1, h2⟩
        exact ⟨h1 b (by simp), h2⟩

/-- Two sorted permutations of a list without ties are equal: the sorting algorithm does not matter. -/
theorem sortedPerm_unique {α : Type} {less : α → α → Bool} {l l1 l2 : List α}
    (ht : ∀ a ∈ l, ∀ b ∈ l, less a b = false → less b a = false → a = b)
    (h1 : SortedPerm less l l1) (h2 : SortedPerm less l l2) : l1 = l2 := by
  have hp : l1.Perm l2 := h1.1.trans h2.1.symm
  exact List.Perm.eq_of_pairwise (le := fun a b => less b a = false)
    (fun a b ha hb x y => ht a (h1.1.mem_iff.mp ha) b (h2.1.mem_iff.mp hb) y x) h1.2 h2.2 hp

/-! ### stable sorting by a numeric key -/

def keyLessN {α : Type} (key : α → Nat) (a b : α) : Bool := decide (key a < key b)

theorem keyLessN_strictWeak {α : Type} (key : α → Nat) : StrictWeak (keyLessN key) where
  irrefl := by intro a; simp [keyLessN]
  trans := by intro a b c; simp [keyLessN]; omega
  incomp := by intro a b c; simp [keyLessN]; omega

theorem insertBy_filter {α : Type} {less : α → α → Bool} (p : α → Bool)
    (hp : ∀ a b, less a b = true → p a = true → p b = false) (x : α) (l : List α) :
    (insertBy less x l).filter p = (x :: l).filter p := by
  induction l with
  | nil => rfl
  | cons y l ih =>
    rw [insertBy]
    split
    · rename_i h
      rw [List.filter_cons, ih]
      have := hp y x h
      cases hy : p y with
      | true => rw [this hy |> fun h => List.filter_cons_of_neg (by simp [h])]; simp [hy, this hy]
      | false => simp [List.filter_cons, hy]
    · rfl

/-- Insertion sort is stable: any class of mutually incomparable elements keeps its order. -/
theorem sortBy_filter {α : Type} {less : α → α → Bool} (p : α → Bool)
    (hp : ∀ a b, less a b = true → p a = true → p b = false) (l : List α) :
    (sortBy less l).filter p = l.filter p := by
  induction l with
  | nil => rfl
  | cons x l ih =>
    rw [sortBy, insertBy_filter p hp, List.filter_cons, List.filter_cons, ih]

theorem sortBy_isSorted_or {α : Type} {less : α → α → Bool} (h : StrictWeak less) (l : List α) :
    (if !isSorted less l then sortBy less l else l) = sortBy less l := by
  cases hs : isSorted less l with
  | false => rfl
  | true => rw [sortBy_of_sorted l ((isSorted_iff h l).mp hs)]; rfl

end Verif
