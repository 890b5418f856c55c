import Verif.Proofs.SortStrings
import Verif.Model.Loads
/-
C20: sorting the symbols of a load statement, for every sorting algorithm.
-/
namespace Verif.Props.LoadArgs
open Verif Verif.Syntax Verif.Rewrite

/-! ### Specification -/

/-- the symbol is loaded under its own name -/
def plain (a : LoadArg) : Bool := a.1.name == a.2.name

/-- documented order: symbols loaded under their own name first, then by local name -/
def before (a b : LoadArg) : Prop :=
  (plain a = true ∧ plain b = false) ∨ (plain a = plain b ∧ (strLess a.2.name b.2.name = true ∨ a.2.name = b.2.name))

/-! ### Proofs -/

theorem loadArgLess_eq (a b : LoadArg) : loadArgLess a b =
    if plain a ≠ plain b then (fun x y : Bool => x && !y) (plain a) (plain b)
    else strLess a.2.name b.2.name := by
  unfold loadArgLess plain
  simp only
  split
  · cases h : (a.1.name == a.2.name) <;> cases h' : (b.1.name == b.2.name) <;> simp_all
  · rfl

theorem boolLess_total : TotalBy id (fun x y : Bool => x && !y) where
  irrefl := by intro a; cases a <;> rfl
  trans := by intro a b c; cases a <;> cases b <;> cases c <;> simp
  total := by intro a b h; cases a <;> cases b <;> simp_all

theorem loadArgLess_total : TotalBy (fun a : LoadArg => (plain a, a.2.name)) loadArgLess := by
  have := TotalBy.lex (k1 := plain) boolLess_total
    (TotalBy.comap strLess_total (fun a : LoadArg => a.2.name))
  have e : loadArgLess = fun a b => if plain a ≠ plain b then (fun x y : Bool => x && !y) (plain a) (plain b)
    else strLess a.2.name b.2.name := by funext a b; exact loadArgLess_eq a b
  rw [e]; exact this

theorem loadArgLess_strictWeak : StrictWeak loadArgLess := by
  refine loadArgLess_total.strictWeak ?_
  intro a b c h
  simp only [Prod.mk.injEq] at h
  rw [loadArgLess_eq, loadArgLess_eq, loadArgLess_eq, loadArgLess_eq, h.1, h.2]
  exact ⟨rfl, rfl⟩

theorem before_of_not_less (a b : LoadArg) (h : loadArgLess b a = false) : before a b := by
  rw [loadArgLess_eq] at h
  unfold before
  by_cases hp : plain b = plain a
  · rw [if_neg (by simpa using hp)] at h
    right
    refine ⟨hp.symm, ?_⟩
    by_cases e : a.2.name = b.2.name
    · exact Or.inr e
    · left
      rcases strLess_total.total _ _ e with h1 | h1
      · exact h1
      · rw [h1] at h; cases h
  · rw [if_pos hp] at h
    left
    cases ha : plain a <;> cases hb : plain b <;> simp_all

theorem dedupFrom_mem (l : List LoadArg) : ∀ last x, x ∈ dedupArgsFrom last l → x = last ∨ x ∈ l := by
  induction l with
  | nil => intro last x h; simpa [dedupArgsFrom] using h
  | cons a l ih =>
    intro last x h
    rw [dedupArgsFrom] at h
    split at h
    · rcases ih a x h with h | h <;> simp [h]
    · rcases List.mem_cons.mp h with h | h
      · exact Or.inl h
      · rcases ih a x h with h | h <;> simp [h]

theorem dedupFrom_names (l : List LoadArg) : ∀ last, ∀ n,
    n ∈ (dedupArgsFrom last l).map (·.2.name) ↔ n ∈ (last :: l).map (·.2.name) := by
  induction l with
  | nil => intro last n; simp [dedupArgsFrom]
  | cons a l ih =>
    intro last n
    rw [dedupArgsFrom]
    split
    · rename_i e
      rw [ih a n]
      simp only [List.map_cons, List.mem_cons, e]
      exact ⟨Or.inr, fun h => by rcases h with h | h; exact Or.inl h; exact h⟩
    · rw [List.map_cons, List.mem_cons, ih a n]
      simp [List.mem_cons]

theorem dedupFrom_distinct (l : List LoadArg) : ∀ last, ((last :: l).map (·.2.name)).Nodup →
    dedupArgsFrom last l = last :: l := by
  induction l with
  | nil => intro last _; rfl
  | cons a l ih =>
    intro last h
    rw [dedupArgsFrom]
    have h1 : last.2.name ≠ a.2.name := by
      simp only [List.map_cons, List.nodup_cons, List.mem_cons, not_or] at h
      exact h.1.1
    rw [if_neg h1, ih a (by simp only [List.map_cons, List.nodup_cons] at h ⊢; exact h.2)]

theorem dedup_distinct (l : List LoadArg) (h : (l.map (·.2.name)).Nodup) : dedupArgs l = l := by
  cases l with
  | nil => rfl
  | cons a l => exact dedupFrom_distinct l a h

theorem dedupFrom_sublist (l : List LoadArg) : ∀ last, (dedupArgsFrom last l).Sublist (last :: l) := by
  induction l with
  | nil => intro last; exact List.Sublist.refl _
  | cons a l ih =>
    intro last
    rw [dedupArgsFrom]
    split
    · exact (ih a).trans (List.sublist_cons_self _ _)
    · exact (ih a).cons_cons _

theorem dedup_sublist (l : List LoadArg) : (dedupArgs l).Sublist l := by
  cases l with
  | nil => exact List.Sublist.refl _
  | cons a l => exact dedupFrom_sublist l a

theorem dedupFrom_strict (l : List LoadArg) : ∀ last, Sorted loadArgLess (last :: l) →
    (dedupArgsFrom last l).Pairwise (fun a b => loadArgLess a b = true) := by
  induction l with
  | nil => intro last _; simp [dedupArgsFrom]
  | cons a l ih =>
    intro last h
    have h' : Sorted loadArgLess (a :: l) := (List.pairwise_cons.mp h).2
    rw [dedupArgsFrom]
    split
    · exact ih a h'
    · rename_i hne
      refine List.pairwise_cons.mpr ⟨?_, ih a h'⟩
      intro x hx
      have hxm : x ∈ a :: l := by rcases dedupFrom_mem l a x hx with h | h <;> simp [h]
      have hxl : loadArgLess x last = false := (List.pairwise_cons.mp h).1 x hxm
      have hxa : loadArgLess x a = false := by
        rcases List.mem_cons.mp hxm with rfl | hx
        · exact loadArgLess_total.irrefl _
        · exact (List.pairwise_cons.mp h').1 x hx
      have hal : loadArgLess a last = false := (List.pairwise_cons.mp h).1 a (by simp)
      apply Classical.byContradiction
      intro hnl
      simp only [Bool.not_eq_true] at hnl
      have key : ∀ u v : LoadArg, loadArgLess u v = false → loadArgLess v u = false →
          (plain u, u.2.name) = (plain v, v.2.name) := by
        intro u v h1 h2
        apply Classical.byContradiction
        intro hn
        rcases loadArgLess_total.total u v hn with h | h
        · rw [h] at h1; cases h1
        · rw [h] at h2; cases h2
      have kx := key x last hxl hnl
      simp only [Prod.mk.injEq] at kx
      have hla : loadArgLess last a = false := by
        rw [loadArgLess_eq, ← kx.1, ← kx.2, ← loadArgLess_eq]; exact hxa
      have := key last a hla hal
      simp only [Prod.mk.injEq] at this
      exact hne this.2

theorem dedup_strict (l : List LoadArg) (h : Sorted loadArgLess l) :
    (dedupArgs l).Pairwise (fun a b => loadArgLess a b = true) := by
  cases l with
  | nil => exact List.Pairwise.nil
  | cons a l => exact dedupFrom_strict l a h

/-- **C20 (bindings).** Whatever the sorting algorithm, if the local names of a load are distinct (Starlark rejects other
loads), sorting its symbols permutes the pairs of original and local name — no binding changes —, puts them in the
documented order, and gives the same result for every algorithm. -/
theorem C20_preserves_bindings (srt : List LoadArg → List LoadArg) (hs : Sorts loadArgLess srt) (l : List LoadArg)
    (h : (l.map (·.2.name)).Nodup) :
    (sortLoadPairs srt l).Perm l ∧ (sortLoadPairs srt l).Pairwise before ∧
    ∀ srt', Sorts loadArgLess srt' → sortLoadPairs srt' l = sortLoadPairs srt l := by
  have hd : ∀ s, Sorts loadArgLess s → sortLoadPairs s l = s l := by
    intro s hs
    exact dedup_distinct _ (((hs l).1.map _).nodup_iff.mpr h)
  rw [hd srt hs]
  refine ⟨(hs l).1, (hs l).2.imp (fun {a b} hab => before_of_not_less a b hab), ?_⟩
  intro srt' hs'
  rw [hd srt' hs']
  refine sortedPerm_unique ?_ (hs' l) (hs l)
  intro a ha b hb h1 h2
  have hn : a.2.name = b.2.name := by
    apply Classical.byContradiction
    intro hn
    rcases loadArgLess_total.total a b (by simp [hn]) with h | h
    · rw [h] at h1; cases h1
    · rw [h] at h2; cases h2
  apply Classical.byContradiction
  intro hne
  have : ∀ l : List LoadArg, (l.map (·.2.name)).Nodup → a ∈ l → b ∈ l → False := by
    intro l
    induction l with
    | nil => intro _ h; cases h
    | cons x l ih =>
      intro hnd ha hb
      simp only [List.map_cons, List.nodup_cons, List.mem_map, not_exists, not_and] at hnd
      rcases List.mem_cons.mp ha with ha | ha <;> rcases List.mem_cons.mp hb with hb | hb
      · exact hne (ha.trans hb.symm)
      · exact hnd.1 b hb (by rw [← hn, ha])
      · exact hnd.1 a ha (by rw [hn, hb])
      · exact ih hnd.2 ha hb
  exact this l h ha hb

/-- **C20 (any load).** In general, nothing is invented and no local name disappears: every pair afterwards was there
before, the set of local names is the same, the pairs are in the documented order, and the same local name remains twice
only once under its own name and once renamed. -/
theorem C20_any_load (srt : List LoadArg → List LoadArg) (hs : Sorts loadArgLess srt) (l : List LoadArg) :
    (∀ a ∈ sortLoadPairs srt l, a ∈ l) ∧
    (∀ n, n ∈ (sortLoadPairs srt l).map (·.2.name) ↔ n ∈ l.map (·.2.name)) ∧
    (sortLoadPairs srt l).Pairwise before ∧
    (sortLoadPairs srt l).Pairwise (fun a b => a.2.name = b.2.name → plain a = true ∧ plain b = false) := by
  have hst := dedup_strict (srt l) (hs l).2
  refine ⟨?_, ?_, ?_, ?_⟩
  · intro a ha
    exact (hs l).1.mem_iff.mp ((dedup_sublist _).subset ha)
  · intro n
    have h1 : n ∈ (sortLoadPairs srt l).map (·.2.name) ↔ n ∈ (srt l).map (·.2.name) := by
      unfold sortLoadPairs
      cases h : srt l with
      | nil => rfl
      | cons a r => exact dedupFrom_names r a n
    rw [h1]
    exact ((hs l).1.map _).mem_iff
  · exact hst.imp (fun {a b} h => before_of_not_less a b (loadArgLess_total.asymm h))
  · refine hst.imp ?_
    intro a b h e
    rw [loadArgLess_eq] at h
    by_cases hp : plain a = plain b
    · rw [if_neg (by simpa using hp), e, strLess_total.irrefl] at h; cases h
    · rw [if_pos hp] at h
      simpa using h

/-- **C20 (idempotent).** Sorting again, by any algorithm, changes nothing. -/
theorem C20_idempotent (srt srt' : List LoadArg → List LoadArg) (hs : Sorts loadArgLess srt)
    (hs' : Sorts loadArgLess srt') (l : List LoadArg) :
    srt' (sortLoadPairs srt l) = sortLoadPairs srt l := by
  have hst := dedup_strict (srt l) (hs l).2
  have hsorted : Sorted loadArgLess (sortLoadPairs srt l) := hst.imp (fun {a b} h => loadArgLess_total.asymm h)
  refine sortedPerm_unique ?_ (hs' (sortLoadPairs srt l)) ⟨List.Perm.refl _, hsorted⟩
  intro a ha b hb h1 h2
  have hst : (sortLoadPairs srt l).Pairwise (fun a b => loadArgLess a b = true) := hst
  apply Classical.byContradiction
  intro hne
  have : ∀ l : List LoadArg, l.Pairwise (fun a b => loadArgLess a b = true) → a ∈ l → b ∈ l → False := by
    intro l
    induction l with
    | nil => intro _ h; cases h
    | cons x l ih =>
      intro hp ha hb
      have hp := List.pairwise_cons.mp hp
      rcases List.mem_cons.mp ha with ha | ha <;> rcases List.mem_cons.mp hb with hb | hb
      · exact hne (ha.trans hb.symm)
      · rw [← ha] at hp; rw [hp.1 b hb] at h1; cases h1
      · rw [← hb] at hp; rw [hp.1 a ha] at h2; cases h2
      · exact ih hp.2 ha hb
  exact this _ hst ha hb

/-- the statement-level function only touches the symbols -/
theorem C20_statement (srt : List LoadArg → List LoadArg) (c p m f t r fc) :
    ∃ f' t', sortLoadArgs srt (.load c p m f t r fc) = .load c p m f' t' r fc ∧
      f'.zip t' = sortLoadPairs srt (f.zip t) ∧ f'.length = t'.length :=
  ⟨_, _, rfl, by simp only [List.zip_map']; simp, by simp⟩

/-! ### Witnesses -/

def nm (s : Bytes) : IdentN := { name := s }

/-- hypotheses met: a sorting algorithm exists, and a load with distinct local names that is reordered -/
example : Sorts loadArgLess (sortBy loadArgLess) ∧
    (([(nm b!"z", nm b!"a"), (nm b!"c", nm b!"c"), (nm b!"b", nm b!"b")] : List LoadArg).map (·.2.name)).Nodup ∧
    sortLoadPairs (sortBy loadArgLess) [(nm b!"z", nm b!"a"), (nm b!"c", nm b!"c"), (nm b!"b", nm b!"b")] =
      [(nm b!"b", nm b!"b"), (nm b!"c", nm b!"c"), (nm b!"z", nm b!"a")] :=
  ⟨sortBy_sorts loadArgLess_strictWeak, by decide, by decide⟩

/-- Finding: deduplication is incomplete: `load(":m", "a", "b", a = "c")` keeps both bindings of `a`. -/
theorem C20_duplicate_kept_witness :
    sortLoadPairs (sortBy loadArgLess) [(nm b!"a", nm b!"a"), (nm b!"b", nm b!"b"), (nm b!"c", nm b!"a")] =
      [(nm b!"a", nm b!"a"), (nm b!"b", nm b!"b"), (nm b!"c", nm b!"a")] := by decide

end Verif.Props.LoadArgs
