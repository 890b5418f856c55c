import Verif.Model.LoadEdit
import Verif.Proofs.SortStrings
import Verif.Proofs.Walk
/-
C36: removing unused loads.
-/
namespace Verif.Props.UnusedLoads
open Verif Verif.Syntax Verif.Walk Verif.Rewrite Verif.Edit

/-! ### Specification -/

/-- The identifier `n` is used in the node: it occurs in it, but not as the left-hand side of an assignment (or as the name of a
keyword argument) and not inside a load. -/
inductive Uses (n : Bytes) : Expr → Prop
  | here (c p) : Uses n (.ident ⟨c, p, n⟩)
  | right (c x p o lb y) : Uses n y → Uses n (.assign c x p o lb y)
  | left (c x p o lb y) : (∀ i, x ≠ .ident i) → Uses n x → Uses n (.assign c x p o lb y)
  | inside (v x) : (∀ c x p o lb y, v ≠ .assign c x p o lb y) → (∀ c p m f t r fc, v ≠ .load c p m f t r fc) → x ∈ slots v →
      Uses n x → Uses n v

/-- the load asks to be kept: a comment at it contains the marker -/
def Kept (e : Expr) : Prop :=
  ∃ c ∈ e.comments.before ++ e.comments.suffix ++ e.comments.after, contains (toLower c.token) b!"@unused" = true

/-- the symbols a statement loads: module, original name, local name -/
def bindings1 : Expr → List (Bytes × Bytes × Bytes)
  | .load _ _ m f t _ _ => (f.zip t).map fun p => (m.value, p.1.name, p.2.name)
  | _ => []

/-- `n` is loaded from `loc` (as `f`) by a load that may be cleaned -/
def Loads (stmts : List Expr) (loc f n : Bytes) : Prop := ∃ e ∈ stmts, ¬ Kept e ∧ (loc, f, n) ∈ bindings1 e

/-- What `n` means after the load statements: the module and original name of its last load. -/
def meaning (n : Bytes) (stmts : List Expr) : Option (Bytes × Bytes) :=
  ((stmts.flatMap bindings1).reverse.find? fun b => b.2.2 = n).map fun b => (b.1, b.2.1)

/-- the statements other than loads -/
def others : List Expr → List Expr
  | [] => []
  | .load .. :: l => others l
  | e :: l => e :: others l

/-! ### Proofs: used symbols -/

theorem usedN_uses : ∀ (k : Nat) (v : Expr) (n : Bytes), n ∈ usedN k v → Uses n v := by
  intro k
  induction k with
  | zero => intro v n h; cases h
  | succ k ih =>
    intro v n h
    have other : (∀ c x p o lb y, v ≠ .assign c x p o lb y) → (∀ c p m f t r fc, v ≠ .load c p m f t r fc) →
        n ∈ (slots v).flatMap (usedN k) → Uses n v := by
      intro h1 h2 h3
      obtain ⟨x, hx, hn⟩ := List.mem_flatMap.mp h3
      exact .inside v x h1 h2 hx (ih x n hn)
    cases v
    case ident i =>
      cases i
      simp only [usedN, List.mem_cons, List.not_mem_nil, or_false] at h
      subst h
      exact .here _ _
    case load => cases h
    case assign c x p o lb y =>
      unfold usedN at h
      split at h
      · rename_i he; cases he
      · rename_i he; cases he
      · rename_i he; cases he; exact .right _ _ _ _ _ _ (ih _ _ h)
      · rename_i hni
        simp only [slots, List.flatMap_cons, List.flatMap_nil, List.append_nil, List.mem_append] at h
        rcases h with h | h
        · exact .left _ _ _ _ _ _ (fun i hi => hni c i p o lb y (by rw [hi])) (ih _ _ h)
        · exact .right _ _ _ _ _ _ (ih _ _ h)
    all_goals exact other (by intros; simp) (by intros; simp) h

theorem uses_usedN (n : Bytes) (v : Expr) (h : Uses n v) : ∀ k, size v ≤ k → n ∈ usedN k v := by
  induction h with
  | here c p =>
    intro k hk
    cases k with
    | zero => simp [size] at hk
    | succ k => simp [usedN]
  | right c x p o lb y _ ih =>
    intro k hk
    cases k with
    | zero => simp [size] at hk
    | succ k =>
      have := ih k (by simp [size] at hk; omega)
      cases x
      case ident => exact this
      all_goals (simp only [usedN, slots, List.flatMap_cons, List.flatMap_nil, List.append_nil, List.mem_append]; exact .inr this)
  | left c x p o lb y hx _ ih =>
    intro k hk
    cases k with
    | zero => simp [size] at hk
    | succ k =>
      have := ih k (by simp [size] at hk; omega)
      cases x
      case ident => exact absurd rfl (hx _)
      all_goals (simp only [usedN, slots, List.flatMap_cons, List.flatMap_nil, List.append_nil, List.mem_append]; exact .inl this)
  | inside v x h1 h2 hx _ ih =>
    intro k hk
    cases k with
    | zero => have := size_pos v; omega
    | succ k =>
      have hm : n ∈ (slots v).flatMap (usedN k) :=
        List.mem_flatMap.mpr ⟨x, hx, ih k (by have := size_slot_lt hx; omega)⟩
      cases v
      case assign => exact absurd rfl (h1 _ _ _ _ _ _)
      case load => exact absurd rfl (h2 _ _ _ _ _ _ _)
      case ident => cases hx
      all_goals exact hm

/-- **C36 (used symbols).** `UsedSymbols` is exactly the set of identifiers used in the tree. -/
theorem C36_used_symbols (v : Expr) (n : Bytes) : n ∈ usedSymbols v ↔ Uses n v :=
  ⟨usedN_uses _ v n, fun h => uses_usedN n v h _ (Nat.le_refl _)⟩

theorem kept_iff (e : Expr) : containsComments e b!"@unused" = true ↔ Kept e := by
  have : toLower b!"@unused" = b!"@unused" := by decide
  simp only [containsComments, List.any_eq_true, this, Kept]

/-! ### Proofs: cleaning -/

theorem cleanArgs_sublist (used : List Bytes) (loc : Bytes) (l : List LoadArg) : ∀ m,
    (cleanArgs used loc m l).1.Sublist (l.filter fun q => q.2.name ∈ used) := by
  induction l with
  | nil => intro m; simp [cleanArgs]
  | cons q l ih =>
    intro m
    rw [List.filter_cons]
    unfold cleanArgs
    by_cases h : q.2.name ∈ used
    · have h1 : used.contains q.2.name = true := by simpa using h
      have h2 : decide (q.2.name ∈ used) = true := by simpa using h
      rw [if_pos h1, if_pos h2]
      split
      · exact (ih m).cons _
      · exact (ih _).cons_cons _
    · have h1 : ¬ used.contains q.2.name = true := by simpa using h
      have h2 : ¬ decide (q.2.name ∈ used) = true := by simpa using h
      rw [if_neg h1, if_neg h2]
      exact ih m

theorem lookup_cons {m : ModMap} {a b c : Bytes} : List.lookup a ((b, c) :: m) = if a = b then some c else m.lookup a := by
  simp only [List.lookup]
  by_cases h : a = b
  · subst h; simp
  · have : (a == b) = false := by simpa using h
    rw [this, if_neg h]

/-- the map after a load: the symbols kept or already loaded from the module are loaded from it -/
theorem cleanArgs_map (used : List Bytes) (loc : Bytes) (l : List LoadArg) : ∀ m n,
    (cleanArgs used loc m l).2.lookup n =
      if n ∈ used ∧ n ∈ l.map (·.2.name) then some loc else m.lookup n := by
  induction l with
  | nil => intro m n; simp [cleanArgs]
  | cons q l ih =>
    intro m n
    unfold cleanArgs
    by_cases h : q.2.name ∈ used
    · rw [if_pos (by simpa using h)]
      split
      · rename_i hl
        rw [ih]
        by_cases hn : n = q.2.name
        · subst hn
          simp [h, hl]
        · simp only [List.map_cons, List.mem_cons, hn, false_or]
      · dsimp only
        rw [ih, lookup_cons]
        by_cases hn : n = q.2.name
        · subst hn
          simp [h]
        · simp only [List.map_cons, List.mem_cons, hn, false_or, if_false]
    · rw [if_neg (by simpa using h), ih]
      by_cases hn : n = q.2.name
      · subst hn; simp [h]
      · simp only [List.map_cons, List.mem_cons, hn, false_or]

theorem cleanArgs_names (used : List Bytes) (loc : Bytes) (l : List LoadArg) : ∀ m,
    ((cleanArgs used loc m l).1.map (·.2.name)).Nodup ∧
    (∀ n, m.lookup n = some loc → n ∉ (cleanArgs used loc m l).1.map (·.2.name)) ∧
    (∀ n, n ∈ used → n ∈ l.map (·.2.name) → m.lookup n ≠ some loc → n ∈ (cleanArgs used loc m l).1.map (·.2.name)) := by
  induction l with
  | nil => intro m; simp [cleanArgs]
  | cons q l ih =>
    intro m
    unfold cleanArgs
    by_cases h : q.2.name ∈ used
    · rw [if_pos (by simpa using h)]
      split
      · rename_i hl
        obtain ⟨a, b, c⟩ := ih m
        refine ⟨a, b, ?_⟩
        intro n hn hm hne
        rcases List.mem_cons.mp (by simpa using hm : n ∈ q.2.name :: l.map (·.2.name)) with rfl | hm
        · exact absurd hl hne
        · exact c n hn hm hne
      · rename_i hl
        obtain ⟨a, b, c⟩ := ih ((q.2.name, loc) :: m)
        dsimp only
        refine ⟨?_, ?_, ?_⟩
        · rw [List.map_cons, List.nodup_cons]
          exact ⟨b _ (by rw [lookup_cons, if_pos rfl]), a⟩
        · intro n hn hmem
          rw [List.map_cons] at hmem
          rcases List.mem_cons.mp hmem with rfl | hmem
          · exact hl hn
          · exact b n (by rw [lookup_cons]; split; rfl; exact hn) hmem
        · intro n hn hm hne
          rw [List.map_cons]
          by_cases hq : n = q.2.name
          · simp [hq]
          · rcases List.mem_cons.mp (by simpa using hm : n ∈ q.2.name :: l.map (·.2.name)) with h' | hm
            · exact absurd h' hq
            · exact List.mem_cons_of_mem _ (c n hn hm (by rw [lookup_cons, if_neg hq]; exact hne))
    · rw [if_neg (by simpa using h)]
      obtain ⟨a, b, c⟩ := ih m
      refine ⟨a, b, ?_⟩
      intro n hn hm hne
      rcases List.mem_cons.mp (by simpa using hm : n ∈ q.2.name :: l.map (·.2.name)) with rfl | hm
      · exact absurd hn h
      · exact c n hn hm hne

/-- **C36 (what one statement becomes).** Statements that are not loads, and loads marked `@unused`, stay as they are. Every other
load keeps some of its symbols that are used, sorted; without any it disappears, leaving its whole-line comments behind. -/
inductive Cleaned (used : Bytes → Prop) : List Expr → List Expr → Prop
  | nil : Cleaned used [] []
  | other (e l l') : (∀ c p m f t r fc, e ≠ .load c p m f t r fc) → Cleaned used l l' → Cleaned used (e :: l) (e :: l')
  | kept (e l l') : Kept e → Cleaned used l l' → Cleaned used (e :: l) (e :: l')
  | clean (c p m f t r fc l l') (s k : List (IdentN × IdentN)) : ¬ Kept (.load c p m f t r fc) →
      s.Sublist (f.zip t) → (∀ q ∈ s, used q.2.name) → s.Perm k → k ≠ [] →
      k.Pairwise (fun a b => strLess a.2.name b.2.name = true) → Cleaned used l l' →
      Cleaned used (.load c p m f t r fc :: l) (.load c p m (k.map (·.1)) (k.map (·.2)) r fc :: l')
  | gone (c p m f t r fc l l') : ¬ Kept (.load c p m f t r fc) → c.before = [] → c.after = [] → Cleaned used l l' →
      Cleaned used (.load c p m f t r fc :: l) l'
  | comments (c p m f t r fc l l') : ¬ Kept (.load c p m f t r fc) → ¬ (c.before = [] ∧ c.after = []) → Cleaned used l l' →
      Cleaned used (.load c p m f t r fc :: l) (.commentBlock { after := c.before ++ c.after } {} :: l')

theorem nameLess_strictWeak : StrictWeak loadNameLess :=
  (strLess_total.comap (fun a : LoadArg => a.2.name)).strictWeak
    (fun a b c h => by have h' : a.2.name = b.2.name := h; rw [h']; exact ⟨rfl, rfl⟩)

theorem strict_sorted (k : List LoadArg) (h : Sorted loadNameLess k) (hn : (k.map (·.2.name)).Nodup) :
    k.Pairwise (fun a b => strLess a.2.name b.2.name = true) := by
  induction k with
  | nil => exact .nil
  | cons a k ih =>
    rw [List.map_cons, List.nodup_cons] at hn
    obtain ⟨h1, h2⟩ := List.pairwise_cons.mp h
    refine .cons ?_ (ih h2 hn.2)
    intro b hb
    have hne : a.2.name ≠ b.2.name := fun he => hn.1 (he ▸ List.mem_map_of_mem (f := fun q : LoadArg => q.2.name) hb)
    have hlt : strLess b.2.name a.2.name = false := h1 b hb
    rcases strLess_total.total a.2.name b.2.name hne with h | h
    · exact h
    · rw [hlt] at h; cases h

theorem cleanLoop_cleaned (srt : List LoadArg → List LoadArg) (hs : Sorts loadNameLess srt) (used : List Bytes) (l : List Expr) :
    ∀ m, Cleaned (fun n => n ∈ used) l (cleanLoop srt used m l) := by
  induction l with
  | nil => intro m; exact .nil
  | cons e l ih =>
    intro m
    cases e
    case load c p mo f t r fc =>
      unfold cleanLoop
      by_cases hk : Kept (.load c p mo f t r fc)
      · rw [if_pos ((kept_iff _).mpr hk)]
        exact .kept _ _ _ hk (ih m)
      · rw [if_neg (fun h => hk ((kept_iff _).mp h))]
        dsimp only
        by_cases he : (cleanArgs used mo.value m (f.zip t)).1 = []
        · rw [he]
          simp only [List.isEmpty_nil, if_true, leftComments]
          by_cases hc : c.before = [] ∧ c.after = []
          · rw [if_pos (by simp [hc])]
            exact .gone _ _ _ _ _ _ _ _ _ hk hc.1 hc.2 (ih _)
          · rw [if_neg (by simpa using hc)]
            exact .comments _ _ _ _ _ _ _ _ _ hk hc (ih _)
        · rw [if_neg (by simpa using he)]
          have hsub := cleanArgs_sublist used mo.value (f.zip t) m
          have hperm := (hs (cleanArgs used mo.value m (f.zip t)).1).1
          refine .clean _ _ _ _ _ _ _ _ _ (cleanArgs used mo.value m (f.zip t)).1 _ hk (hsub.trans List.filter_sublist) ?_ hperm.symm ?_ ?_ (ih _)
          · intro q hq
            simpa using (List.mem_filter.mp (hsub.mem hq)).2
          · intro hn
            rw [hn] at hperm
            exact he hperm.symm.eq_nil
          · refine strict_sorted _ (hs _).2 ?_
            rw [(hperm.map _).nodup_iff]
            exact (cleanArgs_names used mo.value (f.zip t) m).1
    all_goals
      unfold cleanLoop
      exact .other _ _ _ (by intros; simp) (ih m)

/-- **C36 (statements).** What `cleanUnusedLoads` does to each statement of the file. -/
theorem C36_statements (srt : List LoadArg → List LoadArg) (hs : Sorts loadNameLess srt) (f : File) :
    Cleaned (fun n => Uses n f.toExpr) f.stmts (cleanUnusedLoads srt f).stmts := by
  have := cleanLoop_cleaned srt hs (usedSymbols f.toExpr) f.stmts []
  simp only [C36_used_symbols] at this
  exact this

theorem bindings1_load (c p) (mo : StringN) (k : List LoadArg) (r fc) :
    bindings1 (.load c p mo (k.map (·.1)) (k.map (·.2)) r fc) = k.map fun q => (mo.value, q.1.name, q.2.name) := by
  have : (k.map (·.1)).zip (k.map (·.2)) = k := by
    induction k with
    | nil => rfl
    | cons q k ih => simp [ih]
  simp only [bindings1, this]

theorem kept_comments (c p m f t r fc p' m' f' t' r' fc') :
    Kept (.load c p m f t r fc) → Kept (.load c p' m' f' t' r' fc') := id

/-- **C36 (nothing used is removed).** A symbol that is used and was loaded from a module is still loaded from it. -/
theorem C36_used_kept (srt : List LoadArg → List LoadArg) (hs : Sorts loadNameLess srt) (f : File) (loc fn n : Bytes)
    (hu : Uses n f.toExpr) (h : Loads f.stmts loc fn n) : ∃ fn', Loads (cleanUnusedLoads srt f).stmts loc fn' n := by
  rw [← C36_used_symbols] at hu
  have key : ∀ (l : List Expr) (m : ModMap), Loads l loc fn n →
      (∃ fn', Loads (cleanLoop srt (usedSymbols f.toExpr) m l) loc fn' n) ∨ m.lookup n = some loc := by
    intro l
    induction l with
    | nil => rintro m ⟨_, h, _⟩; cases h
    | cons e l ih =>
      rintro m ⟨e', he', hk', hb⟩
      have tail : ∀ x xs, (∃ fn', Loads xs loc fn' n) → ∃ fn', Loads (x ++ xs) loc fn' n := by
        rintro x xs ⟨fn', e, he, h⟩
        exact ⟨fn', e, List.mem_append.mpr (.inr he), h⟩
      cases e
      case load c p mo ff t r fc =>
        unfold cleanLoop
        by_cases hk : Kept (.load c p mo ff t r fc)
        · rw [if_pos ((kept_iff _).mpr hk)]
          rcases List.mem_cons.mp he' with rfl | he'
          · exact absurd hk hk'
          · exact (ih m ⟨e', he', hk', hb⟩).imp (tail [_] _) id
        · rw [if_neg (fun h => hk ((kept_iff _).mp h))]
          dsimp only
          have here : n ∈ (ff.zip t).map (·.2.name) → mo.value = loc → m.lookup n = some loc ∨
              ∃ fn', Loads ((if (cleanArgs (usedSymbols f.toExpr) mo.value m (ff.zip t)).1.isEmpty then leftComments c
                else [.load c p mo ((srt (cleanArgs (usedSymbols f.toExpr) mo.value m (ff.zip t)).1).map (·.1))
                  ((srt (cleanArgs (usedSymbols f.toExpr) mo.value m (ff.zip t)).1).map (·.2)) r fc]) ++
                cleanLoop srt (usedSymbols f.toExpr) (cleanArgs (usedSymbols f.toExpr) mo.value m (ff.zip t)).2 l) loc fn' n := by
            intro hn hm
            by_cases hl : m.lookup n = some loc
            · exact .inl hl
            · right
              have := (cleanArgs_names (usedSymbols f.toExpr) mo.value (ff.zip t) m).2.2 n hu hn (by rw [hm]; exact hl)
              obtain ⟨q, hq, hqn⟩ := List.mem_map.mp this
              refine ⟨q.1.name, .load c p mo ((srt (cleanArgs (usedSymbols f.toExpr) mo.value m (ff.zip t)).1).map (·.1))
                  ((srt (cleanArgs (usedSymbols f.toExpr) mo.value m (ff.zip t)).1).map (·.2)) r fc, ?_, hk, ?_⟩
              · rw [if_neg (by intro h0; rw [List.isEmpty_iff] at h0; rw [h0] at hq; cases hq)]
                simp
              · rw [bindings1_load]
                exact List.mem_map.mpr ⟨q, (hs _).1.mem_iff.mpr hq, by rw [hm, hqn]⟩
          rcases List.mem_cons.mp he' with rfl | he'
          · obtain ⟨q, hq, hqe⟩ := List.mem_map.mp hb
            simp only [Prod.mk.injEq] at hqe
            exact (here (List.mem_map.mpr ⟨q, hq, hqe.2.2⟩) hqe.1).symm
          · rcases ih (cleanArgs (usedSymbols f.toExpr) mo.value m (ff.zip t)).2 ⟨e', he', hk', hb⟩ with h | h
            · exact .inl (tail _ _ h)
            · rw [cleanArgs_map] at h
              split at h
              · rename_i hc
                exact (here hc.2 (by simpa using h)).symm
              · exact .inr h
      all_goals
        rcases List.mem_cons.mp he' with rfl | he'
        · cases hb
        · exact (ih m ⟨e', he', hk', hb⟩).imp (tail [_] _) id
  rcases key f.stmts [] h with h | h
  · exact h
  · cases h

/-- **C36 (nothing is invented, nothing unused stays).** What is loaded afterwards, outside loads marked `@unused`, was loaded
before, under the same name from the same place, and is used. -/
theorem C36_only_used (srt : List LoadArg → List LoadArg) (hs : Sorts loadNameLess srt) (f : File) (loc fn n : Bytes)
    (h : Loads (cleanUnusedLoads srt f).stmts loc fn n) : Uses n f.toExpr ∧ Loads f.stmts loc fn n := by
  have hc := C36_statements srt hs f
  revert h
  generalize (cleanUnusedLoads srt f).stmts = out at hc
  generalize f.stmts = l at hc
  have tail : ∀ x xs, Loads xs loc fn n → Loads (x :: xs) loc fn n := by
    rintro x xs ⟨e, he, h⟩
    exact ⟨e, List.mem_cons_of_mem _ he, h⟩
  induction hc with
  | nil => rintro ⟨_, h, _⟩; cases h
  | other e l l' he _ ih =>
    rintro ⟨e', he', hk, hb⟩
    rcases List.mem_cons.mp he' with rfl | he'
    · cases e' <;> simp only [bindings1, List.not_mem_nil] at hb
      exact absurd rfl (he _ _ _ _ _ _ _)
    · exact (ih ⟨e', he', hk, hb⟩).imp id (tail _ _)
  | kept e l l' he _ ih =>
    rintro ⟨e', he', hk, hb⟩
    rcases List.mem_cons.mp he' with rfl | he'
    · exact absurd he hk
    · exact (ih ⟨e', he', hk, hb⟩).imp id (tail _ _)
  | clean c p m ff t r fc l l' s k hnk hsub hused hperm _ _ _ ih =>
    rintro ⟨e', he', hk, hb⟩
    rcases List.mem_cons.mp he' with rfl | he'
    · rw [bindings1_load] at hb
      obtain ⟨q, hq, hqe⟩ := List.mem_map.mp hb
      have hqs : q ∈ s := hperm.mem_iff.mpr hq
      cases hqe
      exact ⟨hused q hqs, _, List.mem_cons_self .., hnk, List.mem_map.mpr ⟨q, hsub.mem hqs, rfl⟩⟩
    · exact (ih ⟨e', he', hk, hb⟩).imp id (tail _ _)
  | gone c p m ff t r fc l l' _ _ _ _ ih => exact fun h => (ih h).imp id (tail _ _)
  | comments c p m ff t r fc l l' _ _ _ ih =>
    rintro ⟨e', he', hk, hb⟩
    rcases List.mem_cons.mp he' with rfl | he'
    · cases hb
    · exact (ih ⟨e', he', hk, hb⟩).imp id (tail _ _)

/-! ### the meaning of a symbol -/

/-- the meaning after further bindings -/
def cur (n : Bytes) (d : Option (Bytes × Bytes)) (bs : List (Bytes × Bytes × Bytes)) : Option (Bytes × Bytes) :=
  bs.foldl (fun d b => if b.2.2 = n then some (b.1, b.2.1) else d) d

theorem cur_eq (n : Bytes) (bs : List (Bytes × Bytes × Bytes)) (d : Option (Bytes × Bytes)) :
    cur n d bs = ((bs.reverse.find? fun b => b.2.2 = n).map fun b => (b.1, b.2.1)).or d := by
  induction bs generalizing d with
  | nil => rfl
  | cons b bs ih =>
    unfold cur at ih ⊢
    rw [List.foldl_cons, ih, List.reverse_cons, List.find?_append]
    cases bs.reverse.find? fun b => decide (b.2.2 = n) with
    | some x => simp
    | none =>
      by_cases h : b.2.2 = n <;> simp [h]

theorem meaning_cur (n : Bytes) (l : List Expr) : meaning n l = cur n none (l.flatMap bindings1) := by
  rw [cur_eq]
  simp [meaning]

theorem cur_append (n : Bytes) (d) (a b : List (Bytes × Bytes × Bytes)) : cur n d (a ++ b) = cur n (cur n d a) b := by
  simp [cur]

theorem cur_none (n : Bytes) (bs : List (Bytes × Bytes × Bytes)) (h : ∀ b ∈ bs, b.2.2 ≠ n) : ∀ d, cur n d bs = d := by
  induction bs with
  | nil => intro d; rfl
  | cons b bs ih =>
    intro d
    have h1 : cur n d (b :: bs) = cur n (if b.2.2 = n then some (b.1, b.2.1) else d) bs := rfl
    rw [h1, if_neg (h b (by simp))]
    exact ih (fun b hb => h b (by simp [hb])) d

theorem cur_same (n : Bytes) (v : Bytes × Bytes) (bs : List (Bytes × Bytes × Bytes)) (h : ∀ b ∈ bs, b.2.2 = n → (b.1, b.2.1) = v)
    (hex : ∃ b ∈ bs, b.2.2 = n) : ∀ d, cur n d bs = some v := by
  have keep : ∀ (bs : List (Bytes × Bytes × Bytes)), (∀ b ∈ bs, b.2.2 = n → (b.1, b.2.1) = v) → cur n (some v) bs = some v := by
    intro bs
    induction bs with
    | nil => intro _; rfl
    | cons b bs ih =>
      intro h
      have h1 : cur n (some v) (b :: bs) = cur n (if b.2.2 = n then some (b.1, b.2.1) else some v) bs := rfl
      rw [h1]
      split
      · rename_i hn
        rw [h b (by simp) hn]
        exact ih fun b hb => h b (by simp [hb])
      · exact ih fun b hb => h b (by simp [hb])
  induction bs with
  | nil => obtain ⟨_, h, _⟩ := hex; cases h
  | cons b bs ih =>
    intro d
    have h1 : cur n d (b :: bs) = cur n (if b.2.2 = n then some (b.1, b.2.1) else d) bs := rfl
    rw [h1]
    split
    · rename_i hn
      rw [h b (by simp) hn]
      exact keep bs fun b hb => h b (by simp [hb])
    · rename_i hn
      refine ih (fun b hb => h b (by simp [hb])) ?_ d
      obtain ⟨x, hx, hxn⟩ := hex
      rcases List.mem_cons.mp hx with rfl | hx
      · exact absurd hxn hn
      · exact ⟨x, hx, hxn⟩

/-- **C36 (meaning).** A used symbol means the same before and after, provided that it is not loaded by a load marked `@unused`, and
not loaded from one module under two names. -/
theorem C36_meaning (srt : List LoadArg → List LoadArg) (hs : Sorts loadNameLess srt) (f : File) (n : Bytes)
    (hu : Uses n f.toExpr) (hk : ∀ e ∈ f.stmts, Kept e → ∀ b ∈ bindings1 e, b.2.2 ≠ n)
    (hcons : ∀ loc f1 f2, (loc, f1, n) ∈ f.stmts.flatMap bindings1 → (loc, f2, n) ∈ f.stmts.flatMap bindings1 → f1 = f2) :
    meaning n (cleanUnusedLoads srt f).stmts = meaning n f.stmts := by
  rw [← C36_used_symbols] at hu
  rw [meaning_cur, meaning_cur]
  have key : ∀ (l : List Expr) (m : ModMap) (d : Option (Bytes × Bytes)), m.lookup n = d.map (·.1) →
      (∀ e ∈ l, Kept e → ∀ b ∈ bindings1 e, b.2.2 ≠ n) →
      (∀ loc f1 f2, (d = some (loc, f1) ∨ (loc, f1, n) ∈ l.flatMap bindings1) → (loc, f2, n) ∈ l.flatMap bindings1 → f1 = f2) →
      cur n d ((cleanLoop srt (usedSymbols f.toExpr) m l).flatMap bindings1) = cur n d (l.flatMap bindings1) := by
    intro l
    induction l with
    | nil => intros; rfl
    | cons e l ih =>
      intro m d hm hk hc
      have hk' : ∀ e ∈ l, Kept e → ∀ b ∈ bindings1 e, b.2.2 ≠ n := fun e he => hk e (by simp [he])
      have same : ∀ bs, (∀ b ∈ bs, b.2.2 ≠ n) → bindings1 e = bs →
          cur n d (bs ++ (cleanLoop srt (usedSymbols f.toExpr) m l).flatMap bindings1) = cur n d ((e :: l).flatMap bindings1) := by
        intro bs hbs he
        rw [List.flatMap_cons, he, cur_append, cur_append, cur_none n bs hbs]
        refine ih m d hm hk' ?_
        intro loc f1 f2 h1 h2
        refine hc loc f1 f2 (h1.imp id ?_) ?_
        · intro h; rw [List.flatMap_cons]; exact List.mem_append.mpr (.inr h)
        · rw [List.flatMap_cons]; exact List.mem_append.mpr (.inr h2)
      cases e
      case load c p mo ff t r fc =>
        unfold cleanLoop
        by_cases hkd : Kept (.load c p mo ff t r fc)
        · rw [if_pos ((kept_iff _).mpr hkd), List.flatMap_cons]
          exact same _ (hk _ (by simp) hkd) rfl
        · rw [if_neg (fun h => hkd ((kept_iff _).mp h))]
          dsimp only
          rw [List.flatMap_append, List.flatMap_cons, cur_append, cur_append]
          have hres : ∀ d, cur n d ((if (cleanArgs (usedSymbols f.toExpr) mo.value m (ff.zip t)).1.isEmpty then leftComments c
                else [.load c p mo ((srt (cleanArgs (usedSymbols f.toExpr) mo.value m (ff.zip t)).1).map (·.1))
                  ((srt (cleanArgs (usedSymbols f.toExpr) mo.value m (ff.zip t)).1).map (·.2)) r fc]).flatMap bindings1) =
              cur n d ((srt (cleanArgs (usedSymbols f.toExpr) mo.value m (ff.zip t)).1).map fun q => (mo.value, q.1.name, q.2.name)) := by
            intro d
            split
            · rename_i h0
              rw [List.isEmpty_iff] at h0
              rw [h0]
              have e1 : srt [] = [] := (hs []).1.eq_nil
              rw [e1]
              have e2 : (leftComments c).flatMap bindings1 = [] := by
                unfold leftComments; split <;> rfl
              rw [e2]; rfl
            · simp only [List.flatMap_cons, List.flatMap_nil, List.append_nil, bindings1_load]
          rw [hres]
          obtain ⟨nd, n1, n2⟩ := cleanArgs_names (usedSymbols f.toExpr) mo.value (ff.zip t) m
          have hmap := cleanArgs_map (usedSymbols f.toExpr) mo.value (ff.zip t) m n
          have hb1 : ∀ q ∈ (cleanArgs (usedSymbols f.toExpr) mo.value m (ff.zip t)).1, q ∈ ff.zip t := fun q hq =>
            ((cleanArgs_sublist (usedSymbols f.toExpr) mo.value (ff.zip t) m).trans List.filter_sublist).mem hq
          by_cases hn : n ∈ (ff.zip t).map (·.2.name)
          · obtain ⟨q, hq, hqn⟩ := List.mem_map.mp hn
            have hval : ∀ q' ∈ ff.zip t, q'.2.name = n → q'.1.name = q.1.name := by
              intro q' hq' hq'n
              refine hc mo.value _ _ (.inr ?_) ?_
              · rw [List.flatMap_cons]; exact List.mem_append.mpr (.inl (List.mem_map.mpr ⟨q', hq', by rw [hq'n]⟩))
              · rw [List.flatMap_cons]; exact List.mem_append.mpr (.inl (List.mem_map.mpr ⟨q, hq, by rw [hqn]⟩))
            have horig : ∀ d, cur n d (bindings1 (.load c p mo ff t r fc)) = some (mo.value, q.1.name) := by
              refine cur_same n _ _ ?_ ?_
              · intro b hb hbn
                obtain ⟨q', hq', rfl⟩ := List.mem_map.mp hb
                simp only [Prod.mk.injEq, true_and]
                exact hval q' hq' hbn
              · exact ⟨_, List.mem_map.mpr ⟨q, hq, rfl⟩, hqn⟩
            have hnew : cur n d ((srt (cleanArgs (usedSymbols f.toExpr) mo.value m (ff.zip t)).1).map fun q => (mo.value, q.1.name, q.2.name)) =
                some (mo.value, q.1.name) := by
              by_cases hl : m.lookup n = some mo.value
              · rw [cur_none]
                · cases d with
                  | none => rw [hm] at hl; cases hl
                  | some v =>
                    obtain ⟨v1, v2⟩ := v
                    rw [hm] at hl
                    simp only [Option.map_some, Option.some.injEq] at hl
                    have := hc v1 v2 q.1.name (.inl rfl) (by
                      rw [List.flatMap_cons]; exact List.mem_append.mpr (.inl (List.mem_map.mpr ⟨q, hq, by rw [hqn, hl]⟩)))
                    rw [this, hl]
                · intro b hb hbn
                  obtain ⟨q', hq', rfl⟩ := List.mem_map.mp hb
                  exact n1 n hl (List.mem_map.mpr ⟨q', (hs _).1.mem_iff.mp hq', hbn⟩)
              · refine cur_same n _ _ ?_ ?_ d
                · intro b hb hbn
                  obtain ⟨q', hq', rfl⟩ := List.mem_map.mp hb
                  simp only [Prod.mk.injEq, true_and]
                  exact hval q' (hb1 q' ((hs _).1.mem_iff.mp hq')) hbn
                · obtain ⟨q', hq', hq'n⟩ := List.mem_map.mp (n2 n hu hn hl)
                  exact ⟨_, List.mem_map.mpr ⟨q', (hs _).1.mem_iff.mpr hq', rfl⟩, hq'n⟩
            rw [horig, hnew]
            refine ih _ _ ?_ hk' ?_
            · rw [hmap, if_pos ⟨hu, hn⟩]; rfl
            · intro loc f1 f2 h1 h2
              have h2' : (loc, f2, n) ∈ (Expr.load c p mo ff t r fc :: l).flatMap bindings1 := by
                rw [List.flatMap_cons]; exact List.mem_append.mpr (.inr h2)
              rcases h1 with h1 | h1
              · simp only [Option.some.injEq, Prod.mk.injEq] at h1
                obtain ⟨rfl, rfl⟩ := h1
                refine hc _ _ _ (.inr ?_) h2'
                rw [List.flatMap_cons]; exact List.mem_append.mpr (.inl (List.mem_map.mpr ⟨q, hq, by rw [hqn]⟩))
              · refine hc _ _ _ (.inr ?_) h2'
                rw [List.flatMap_cons]; exact List.mem_append.mpr (.inr h1)
          · rw [cur_none n (bindings1 _), cur_none n (List.map _ _)]
            · refine ih _ _ ?_ hk' ?_
              · rw [hmap, if_neg (fun h => hn h.2)]; exact hm
              · intro loc f1 f2 h1 h2
                refine hc loc f1 f2 (h1.imp id ?_) ?_
                · intro h; rw [List.flatMap_cons]; exact List.mem_append.mpr (.inr h)
                · rw [List.flatMap_cons]; exact List.mem_append.mpr (.inr h2)
            · intro b hb hbn
              obtain ⟨q', hq', rfl⟩ := List.mem_map.mp hb
              exact hn (List.mem_map.mpr ⟨q', hb1 q' ((hs _).1.mem_iff.mp hq'), hbn⟩)
            · intro b hb hbn
              obtain ⟨q', hq', rfl⟩ := List.mem_map.mp hb
              exact hn (List.mem_map.mpr ⟨q', hq', hbn⟩)
      all_goals
        have h1 := same [] (fun b hb => by cases hb) rfl
        exact h1
  refine key f.stmts [] none rfl hk ?_
  rintro loc f1 f2 (h | h) h2
  · cases h
  · exact hcons loc f1 f2 h h2

/-! #### cases -/

def ident (n : Bytes) : IdentN := { name := n }

/-- `load(m, "b", "a", "c")`, `load(k, "a")  # comment before`, `a(x = b)` -/
def exFile : File := { stmts := [
  .load {} {} { value := b!"m" } [ident b!"b", ident b!"a", ident b!"c"] [ident b!"b", ident b!"a", ident b!"c"] {} false,
  .load { before := [{ token := b!"# keep me" }] } {} { value := b!"k" } [ident b!"d"] [ident b!"d"] {} false,
  .call {} (.ident (ident b!"a")) {} [.assign {} (.ident (ident b!"x")) {} b!"=" false (.ident (ident b!"b"))] {} false false] }

example : (cleanUnusedLoads (sortBy loadNameLess) exFile).stmts = [
  .load {} {} { value := b!"m" } [ident b!"a", ident b!"b"] [ident b!"a", ident b!"b"] {} false,
  .commentBlock { after := [{ token := b!"# keep me" }] } {},
  .call {} (.ident (ident b!"a")) {} [.assign {} (.ident (ident b!"x")) {} b!"=" false (.ident (ident b!"b"))] {} false false] := rfl

example : Sorts loadNameLess (sortBy loadNameLess) := sortBy_sorts nameLess_strictWeak

example : Uses b!"b" exFile.toExpr :=
  .inside _ (.call {} (.ident (ident b!"a")) {} [.assign {} (.ident (ident b!"x")) {} b!"=" false (.ident (ident b!"b"))] {} false false)
    (by intros; simp [exFile, File.toExpr]) (by intros; simp [exFile, File.toExpr]) (by simp [exFile, File.toExpr, slots])
    (.inside _ (.assign {} (.ident (ident b!"x")) {} b!"=" false (.ident (ident b!"b"))) (by intros; simp) (by intros; simp) (by simp [slots])
      (.right _ _ _ _ _ _ (.here _ _)))

/-- **C36 (finding).** Two loads of one symbol from one module under different names: the first is kept, although the second is
the one that counts. -/
theorem C36_meaning_witness :
    let f : File := { stmts := [
      .load {} {} { value := b!"m" } [ident b!"old"] [ident b!"x"] {} false,
      .load {} {} { value := b!"m" } [ident b!"new"] [ident b!"x"] {} false,
      .ident (ident b!"x")] }
    meaning b!"x" f.stmts = some (b!"m", b!"new") ∧
    meaning b!"x" (cleanUnusedLoads (sortBy loadNameLess) f).stmts = some (b!"m", b!"old") := by
  decide

/-- **C36 (finding).** Type annotations do not count as uses: the load of a symbol used only as the type of a parameter is removed. -/
theorem C36_types_witness :
    (cleanUnusedLoads (sortBy loadNameLess) { stmts := [
      .load {} {} { value := b!"m" } [ident b!"T"] [ident b!"T"] {} false,
      .defS {} {} b!"f" [.typedIdent {} (ident b!"x") (.ident (ident b!"T"))] [.branch {} b!"pass" {}] {} false false .nil] }).stmts =
    [.defS {} {} b!"f" [.typedIdent {} (ident b!"x") (.ident (ident b!"T"))] [.branch {} b!"pass" {}] {} false false .nil] := rfl

end Verif.Props.UnusedLoads
