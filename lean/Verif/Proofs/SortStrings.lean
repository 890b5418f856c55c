import Verif.Model.SortStrings
import Verif.Proofs.Sort
import Verif.Proofs.Walk
/- Lemmas about string-list sorting. -/
namespace Verif.Rewrite
open Verif Verif.Syntax Verif.Walk

theorem splitCmp_eq (a b : List Bytes) :
    splitCmp a b = if a = b then none else some (lexLess strLess a b) := by
  induction a generalizing b with
  | nil => cases b <;> simp [splitCmp, lexLess]
  | cons x a ih =>
    cases b with
    | nil => simp [splitCmp, lexLess]
    | cons y b =>
      simp only [splitCmp, lexLess, List.cons.injEq]
      by_cases h : x = y
      · subst h; simp [ih]
      · simp [h]

theorem keyLess_eq (a b : SortKey) : keyLess a b =
    if a.phase ≠ b.phase then (fun x y : Nat => decide (x < y)) a.phase b.phase
    else if a.split ≠ b.split then lexLess strLess a.split b.split
    else if a.value ≠ b.value then strLess a.value b.value
    else (fun x y : Nat => decide (x < y)) a.original b.original := by
  unfold keyLess
  rw [splitCmp_eq]
  by_cases h : a.split = b.split <;> simp [h]

theorem keyLess_total4 : TotalBy (fun k : SortKey => (k.phase, k.split, k.value, k.original)) keyLess := by
  have h : keyLess = fun a b =>
    if a.phase ≠ b.phase then (fun x y : Nat => decide (x < y)) a.phase b.phase
    else if a.split ≠ b.split then lexLess strLess a.split b.split
    else if a.value ≠ b.value then strLess a.value b.value
    else (fun x y : Nat => decide (x < y)) a.original b.original := by
    funext a b; exact keyLess_eq a b
  rw [h]
  exact TotalBy.lex (k1 := fun k : SortKey => k.phase) natLess_total
    (TotalBy.lex (k1 := fun k : SortKey => k.split) (lexLess_total strLess_total)
      (TotalBy.lex (k1 := fun k : SortKey => k.value) strLess_total
        (TotalBy.comap natLess_total (fun k : SortKey => k.original))))

theorem keyLess_strictWeak : StrictWeak keyLess := by
  refine keyLess_total4.strictWeak ?_
  intro a b c h
  simp only [Prod.mk.injEq] at h
  obtain ⟨h1, h2, h3, h4⟩ := h
  rw [keyLess_eq, keyLess_eq, keyLess_eq, keyLess_eq, h1, h2, h3, h4]
  exact ⟨rfl, rfl⟩

/-- The order on values that the sort realises: `keyLess` of keys with equal index. -/
def valLess (strip : Bool) (a b : Bytes) : Bool :=
  keyLess (makeSortKey strip 0 { value := a }) (makeSortKey strip 0 { value := b })

/-- `k` is the sort key of some literal -/
def KeyOK (strip : Bool) (k : SortKey) : Prop :=
  k.phase = (makeSortKey strip 0 { value := k.value }).phase ∧
  k.split = (makeSortKey strip 0 { value := k.value }).split ∧ k.x.value = k.value

theorem keyOK_make (strip : Bool) (i : Nat) (x : StringN) : KeyOK strip (makeSortKey strip i x) := ⟨rfl, rfl, rfl⟩

theorem keyLess_val {strip : Bool} {a b : SortKey} (ha : KeyOK strip a) (hb : KeyOK strip b) :
    keyLess a b = if a.value = b.value then decide (a.original < b.original) else valLess strip a.value b.value := by
  unfold valLess
  rw [keyLess_eq, keyLess_eq, ha.1, ha.2.1, hb.1, hb.2.1]
  by_cases h : a.value = b.value
  · simp [h]
  · simp only [if_neg h]
    by_cases h1 : (makeSortKey strip 0 { value := a.value }).phase = (makeSortKey strip 0 { value := b.value }).phase
    · by_cases h2 : (makeSortKey strip 0 { value := a.value }).split = (makeSortKey strip 0 { value := b.value }).split
      · simp only [h1, h2, h, ne_eq, not_true, if_false, not_false_iff, if_true]; exact (if_pos h).symm
      · simp [h1, h2]
    · simp [h1]

theorem valLess_total (strip : Bool) : TotalBy id (valLess strip) where
  irrefl a := keyLess_total4.irrefl _
  trans a b c h1 h2 := keyLess_total4.trans _ _ _ h1 h2
  total a b h := keyLess_total4.total _ _ (by
    intro e; apply h; simp only [Prod.mk.injEq] at e; exact e.2.2.1)

/-! ### uniq -/

theorem uniqFrom_sublist (last : Bytes) (l : List SortKey) : (uniqFrom last l).Sublist l := by
  induction l generalizing last with
  | nil => exact List.Sublist.refl _
  | cons k l ih =>
    rw [uniqFrom]; split
    · exact List.Sublist.cons k (ih last)
    · exact List.Sublist.cons_cons k (ih _)

theorem uniq_sublist (l : List SortKey) : (uniq l).Sublist l := by
  cases l with
  | nil => exact List.Sublist.refl _
  | cons k l => exact List.Sublist.cons_cons k (uniqFrom_sublist _ l)

theorem uniqFrom_values (last : Bytes) (l : List SortKey) (v : Bytes) (h : v ∈ l.map (·.value)) :
    v = last ∨ v ∈ (uniqFrom last l).map (·.value) := by
  induction l generalizing last with
  | nil => simp at h
  | cons k l ih =>
    rw [uniqFrom]
    rw [List.map_cons, List.mem_cons] at h
    split
    · rename_i hk
      rcases h with rfl | h
      · exact Or.inl hk
      · exact ih last h
    · rcases h with rfl | h
      · exact Or.inr (by simp)
      · rcases ih k.value h with rfl | h
        · exact Or.inr (by simp)
        · exact Or.inr (by simp only [List.map_cons, List.mem_cons]; exact Or.inr h)

theorem uniq_values (l : List SortKey) (v : Bytes) : v ∈ (uniq l).map (·.value) ↔ v ∈ l.map (·.value) := by
  constructor
  · intro h; exact ((uniq_sublist l).map _).subset h
  · intro h
    cases l with
    | nil => exact h
    | cons k l =>
      rw [List.map_cons, List.mem_cons] at h
      rw [uniq, List.map_cons, List.mem_cons]
      rcases h with h | h
      · exact Or.inl h
      · exact uniqFrom_values _ _ _ h

/-- weakly increasing values -/
def ValSorted (strip : Bool) (l : List SortKey) : Prop :=
  l.Pairwise fun a b => a.value = b.value ∨ valLess strip a.value b.value = true

theorem valSorted_of_sorted {strip : Bool} {l : List SortKey} (hk : ∀ k ∈ l, KeyOK strip k)
    (h : Sorted keyLess l) : ValSorted strip l := by
  unfold ValSorted
  refine List.Pairwise.imp_of_mem ?_ h
  intro a b ha hb hab
  rw [keyLess_val (hk b hb) (hk a ha)] at hab
  by_cases e : a.value = b.value
  · exact Or.inl e
  · rw [if_neg (Ne.symm e)] at hab
    right
    rcases (valLess_total strip).total a.value b.value e with h | h
    · exact h
    · rw [h] at hab; cases hab

theorem uniqFrom_strict {strip : Bool} (last : Bytes) (l : List SortKey) (h : ValSorted strip l)
    (hl : ∀ k ∈ l, last = k.value ∨ valLess strip last k.value = true) :
    ((uniqFrom last l).Pairwise fun a b => valLess strip a.value b.value = true) ∧
      ∀ k ∈ uniqFrom last l, valLess strip last k.value = true := by
  induction l generalizing last with
  | nil => simp [uniqFrom]
  | cons k l ih =>
    unfold ValSorted at h
    rw [List.pairwise_cons] at h
    rw [uniqFrom]
    split
    · exact ih last h.2 (fun x hx => hl x (by simp [hx]))
    · rename_i hk
      have hlk : valLess strip last k.value = true := by
        rcases hl k (by simp) with e | e
        · exact absurd e.symm hk
        · exact e
      have := ih k.value h.2 h.1
      refine ⟨List.pairwise_cons.mpr ⟨this.2, this.1⟩, ?_⟩
      intro x hx
      rcases List.mem_cons.mp hx with rfl | hx
      · exact hlk
      · exact (valLess_total strip).trans _ _ _ hlk (this.2 x hx)

theorem uniq_strict {strip : Bool} (l : List SortKey) (h : ValSorted strip l) :
    (uniq l).Pairwise fun a b => valLess strip a.value b.value = true := by
  cases l with
  | nil => exact List.Pairwise.nil
  | cons k l =>
    unfold ValSorted at h
    rw [List.pairwise_cons] at h
    have := uniqFrom_strict k.value l h.2 h.1
    exact List.pairwise_cons.mpr ⟨this.2, this.1⟩

theorem isUniq_strict {strip : Bool} (l : List SortKey) (h : ValSorted strip l) (hu : isUniq l = true) :
    l.Pairwise fun a b => valLess strip a.value b.value = true := by
  induction l with
  | nil => exact List.Pairwise.nil
  | cons a l ih =>
    unfold ValSorted at h
    rw [List.pairwise_cons] at h
    cases l with
    | nil => simp
    | cons b l =>
      simp only [isUniq, Bool.and_eq_true, bne_iff_ne, ne_eq] at hu
      have h2 := ih h.2 hu.2
      refine List.pairwise_cons.mpr ⟨?_, h2⟩
      have hab : valLess strip a.value b.value = true := by
        rcases h.1 b (by simp) with e | e
        · exact absurd e hu.1
        · exact e
      intro z hz
      rcases List.mem_cons.mp hz with rfl | hz
      · exact hab
      · exact (valLess_total strip).trans _ _ _ hab ((List.pairwise_cons.mp h2).1 z hz)

theorem uniqFrom_of_strict (last : Bytes) (l : List SortKey) (strip : Bool)
    (h : l.Pairwise fun a b => valLess strip a.value b.value = true)
    (hl : ∀ k ∈ l, valLess strip last k.value = true) : uniqFrom last l = l := by
  induction l generalizing last with
  | nil => rfl
  | cons k l ih =>
    rw [List.pairwise_cons] at h
    rw [uniqFrom, if_neg, ih k.value h.2 h.1]
    intro e
    have := hl k (by simp)
    rw [e, (valLess_total strip).irrefl] at this; cases this

/-! ### keys of a chunk -/

theorem mkKeys_keyOK (strip : Bool) (chunk : List StringN) : ∀ k ∈ mkKeys strip chunk, KeyOK strip k := by
  intro k hk
  unfold mkKeys at hk
  rw [List.mem_mapIdx] at hk
  obtain ⟨i, _, rfl⟩ := hk
  exact keyOK_make _ _ _

theorem mkKeys_length (strip : Bool) (chunk : List StringN) : (mkKeys strip chunk).length = chunk.length := by
  simp [mkKeys]

theorem mkKeys_x (strip : Bool) (chunk : List StringN) : (mkKeys strip chunk).map (·.x) = chunk := by
  unfold mkKeys
  apply List.ext_getElem
  · simp
  · intro i h1 h2; simp [makeSortKey]

theorem mkKeys_value (strip : Bool) (chunk : List StringN) :
    (mkKeys strip chunk).map (·.value) = chunk.map (·.value) := by
  unfold mkKeys
  apply List.ext_getElem
  · simp
  · intro i h1 h2; simp [makeSortKey]

theorem mkKeys_original (strip : Bool) (chunk : List StringN) :
    (mkKeys strip chunk).map (·.original) = List.range chunk.length := by
  unfold mkKeys
  apply List.ext_getElem
  · simp
  · intro i h1 h2; simp [makeSortKey]

/-- the list that is handed to `sort.Sort` -/
def clearFirst (keys : List SortKey) : List SortKey :=
  match keys with
  | [] => []
  | k :: ks => { k with x := setBefore [] k.x } :: ks

theorem clearFirst_original (keys : List SortKey) :
    (clearFirst keys).map (·.original) = keys.map (·.original) := by
  cases keys <;> rfl

theorem clearFirst_value (keys : List SortKey) : (clearFirst keys).map (·.value) = keys.map (·.value) := by
  cases keys <;> rfl

theorem clearFirst_keyOK {strip : Bool} {keys : List SortKey} (h : ∀ k ∈ keys, KeyOK strip k) :
    ∀ k ∈ clearFirst keys, KeyOK strip k := by
  cases keys with
  | nil => simp [clearFirst]
  | cons k ks =>
    intro x hx
    simp only [clearFirst, List.mem_cons] at hx
    rcases hx with rfl | hx
    · obtain ⟨h1, h2, h3⟩ := h k (by simp)
      exact ⟨h1, h2, h3⟩
    · exact h x (by simp [hx])

theorem noties {keys : List SortKey} (h : (keys.map (·.original)).Nodup) :
    ∀ a ∈ keys, ∀ b ∈ keys, keyLess a b = false → keyLess b a = false → a = b := by
  intro a ha b hb h1 h2
  have e : a.original = b.original := by
    apply Classical.byContradiction
    intro e
    rcases keyLess_total4.total a b (by intro x; simp only [Prod.mk.injEq] at x; exact e x.2.2.2) with x | x
    · rw [x] at h1; cases h1
    · rw [x] at h2; cases h2
  induction keys with
  | nil => cases ha
  | cons k ks ih =>
    simp only [List.map_cons, List.nodup_cons, List.mem_map, not_exists, not_and] at h
    rcases List.mem_cons.mp ha with rfl | ha' <;> rcases List.mem_cons.mp hb with rfl | hb'
    · rfl
    · exact absurd e.symm (h.1 b hb')
    · exact absurd e (h.1 a ha')
    · exact ih h.2 ha' hb'

/-- `srt` does what `sort.Sort` promises on every list -/
def Sorts {α : Type} (less : α → α → Bool) (srt : List α → List α) : Prop := ∀ l, SortedPerm less l (srt l)

theorem sortBy_sorts {α : Type} {less : α → α → Bool} (h : StrictWeak less) : Sorts less (sortBy less) :=
  fun l => sortBy_sortedPerm h l

theorem clear_nodup (strip : Bool) (chunk : List StringN) :
    ((clearFirst (mkKeys strip chunk)).map (·.original)).Nodup := by
  rw [clearFirst_original, mkKeys_original]; exact List.nodup_range

/-- all correct sorting algorithms agree on what a chunk is sorted to -/
theorem srt_eq {srt srt' : List SortKey → List SortKey} (h : Sorts keyLess srt) (h' : Sorts keyLess srt')
    (strip : Bool) (chunk : List StringN) :
    srt (clearFirst (mkKeys strip chunk)) = srt' (clearFirst (mkKeys strip chunk)) :=
  sortedPerm_unique (noties (clear_nodup strip chunk)) (h _) (h' _)

theorem sortChunk_unfold (srt : List SortKey → List SortKey) (strip : Bool) (chunk : List StringN) :
    sortChunk srt strip chunk =
      if isSorted keyLess (mkKeys strip chunk) && isUniq (mkKeys strip chunk) then chunk
      else match uniq (srt (clearFirst (mkKeys strip chunk))) with
        | [] => []
        | k :: ks => setBefore (headBefore chunk) k.x :: ks.map (·.x) := by
  unfold sortChunk clearFirst
  rfl

theorem sortChunk_srt {srt srt' : List SortKey → List SortKey} (h : Sorts keyLess srt) (h' : Sorts keyLess srt')
    (strip : Bool) (chunk : List StringN) : sortChunk srt strip chunk = sortChunk srt' strip chunk := by
  rw [sortChunk_unfold, sortChunk_unfold, srt_eq h h']

theorem sortLoop_srt {srt srt' : List SortKey → List SortKey} (h : Sorts keyLess srt) (h' : Sorts keyLess srt')
    (strip : Bool) (n : Nat) (l : List Expr) : sortLoop srt strip n l = sortLoop srt' strip n l := by
  induction n generalizing l with
  | zero => rfl
  | succ n ih =>
    cases l with
    | nil => rfl
    | cons x l =>
      cases x <;> simp only [sortLoop, ih, sortChunk_srt h h' strip]

end Verif.Rewrite
