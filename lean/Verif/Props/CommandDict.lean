import Verif.Props.CommandAttr
/-
C67: the commands of buildozer that edit dictionaries: dict_add, dict_set, dict_remove, dict_replace_if_equal, dict_list_add, and
set_select.
-/
namespace Verif.Props.Commands
open Verif Verif.Syntax Verif.Edit Verif.Cmd Verif.Walk Verif.Props.Attr Verif.Props.ListEdit Verif.Props.Select

/-! ### Specification -/

/-- the argument is a key and a value, separated by the first colon -/
def Pair (arg k v : Bytes) : Prop := arg = k ++ 58 :: v ∧ 58 ∉ k

/-- no argument has the key -/
def NoneFor (args : List Bytes) (k : Bytes) : Prop := ∀ x ∈ args, ∀ v, ¬ Pair x k v

/-- the last argument with the key has this value -/
def LastFor (args : List Bytes) (k v : Bytes) : Prop := ∃ pre x post, args = pre ++ x :: post ∧ Pair x k v ∧ NoneFor post k

/-- the first argument with the key has this value -/
def FirstFor (args : List Bytes) (k v : Bytes) : Prop := ∃ pre x post, args = pre ++ x :: post ∧ Pair x k v ∧ NoneFor pre k

/-- the entries the command starts with: those of the dictionary that is the attribute, none if it is something else -/
def Entries (e : Expr) (l : List Expr) : Prop :=
  (∃ c p t m, e = .dict c p l t m) ∨ ((∀ c p l' t m, e ≠ .dict c p l' t m) ∧ l = [])

/-- the attribute is afterwards a dictionary with these entries, with the comments, positions and layout it had before -/
def NewEntries (e e' : Expr) (l' : List Expr) : Prop :=
  (∃ c p l t m, e = .dict c p l t m ∧ e' = .dict c p l' t m) ∨ ((∀ c p l t m, e ≠ .dict c p l t m) ∧ e' = .dict {} {} l' {} false)

open Classical in
/-- the entries whose key is none of the keys satisfying `K` (entries without a string as key are among them) -/
noncomputable def entriesWithout (K : Bytes → Prop) (l : List Expr) : List Expr := l.filter fun x => decide (∀ k, K k → ¬ HasKey k x)

/-- a key given by an argument -/
def KeyOf (args : List Bytes) (k : Bytes) : Prop := ∃ x ∈ args, ∃ v, Pair x k v

/-- the values given for the key, in order -/
def valuesFor (ps : List (Bytes × Bytes)) (k : Bytes) : List Bytes := (ps.filter fun q => q.1 = k).map (·.2)

/-- the expression is a select with one argument, a dictionary with these entries -/
def IsSelectOf (e : Expr) (l : List Expr) : Prop :=
  ∃ c ci pi p c' p' t m t' a b, e = .call c (.ident ⟨ci, pi, b!"select"⟩) p [.dict c' p' l t m] t' a b

/-! ### Lemmas -/

theorem splitColon_spec (x : Bytes) : (∀ k v, splitColon x = some (k, v) ↔ Pair x k v) ∧ (splitColon x = none ↔ 58 ∉ x) := by
  induction x with
  | nil =>
    refine ⟨fun k v => ⟨fun h => (by cases h), ?_⟩, by simp [splitColon]⟩
    rintro ⟨h, _⟩
    cases k <;> cases h
  | cons c l ih =>
    unfold splitColon
    by_cases hc : c = 58
    · rw [if_pos hc]
      subst hc
      refine ⟨fun k v => ⟨fun h => ?_, ?_⟩, by simp⟩
      · cases h; exact ⟨rfl, by simp⟩
      · rintro ⟨h, hn⟩
        cases k with
        | nil => cases h; rfl
        | cons d k => cases h; exact absurd (List.mem_cons_self ..) hn
    · rw [if_neg hc]
      constructor
      · intro k v
        cases h : splitColon l with
        | none =>
          refine ⟨fun h => (by cases h), ?_⟩
          rintro ⟨e, hn⟩
          have : 58 ∈ c :: l := by rw [e]; simp
          rcases List.mem_cons.mp this with h' | h'
          · exact absurd h'.symm hc
          · exact absurd h' (ih.2.mp h)
        | some q =>
          have hq := (ih.1 q.1 q.2).mp h
          constructor
          · intro e
            cases e
            refine ⟨by rw [hq.1]; rfl, ?_⟩
            intro hm
            rcases List.mem_cons.mp hm with h' | h'
            · exact absurd h'.symm hc
            · exact hq.2 h'
          · rintro ⟨e, hn⟩
            cases k with
            | nil => cases e; exact absurd rfl hc
            | cons d k =>
              cases e
              have := (ih.1 k v).mpr ⟨rfl, fun hm => hn (List.mem_cons_of_mem _ hm)⟩
              rw [h] at this
              cases this
              rfl
      · cases h : splitColon l with
        | none =>
          refine ⟨fun _ hm => ?_, fun _ => rfl⟩
          rcases List.mem_cons.mp hm with h' | h'
          · exact absurd h'.symm hc
          · exact absurd h' (ih.2.mp h)
        | some q =>
          refine ⟨fun h => (by cases h), fun hm => ?_⟩
          have : splitColon l = none := ih.2.mpr fun h' => hm (List.mem_cons_of_mem _ h')
          rw [h] at this; cases this

theorem pair_unique {x k v k' v' : Bytes} (h : Pair x k v) (h' : Pair x k' v') : k = k' ∧ v = v' := by
  have a := ((splitColon_spec x).1 k v).mpr h
  have b := ((splitColon_spec x).1 k' v').mpr h'
  rw [a] at b; cases b; exact ⟨rfl, rfl⟩

theorem getStringExpr_notNil (E : Env) (v : Bytes) : (getStringExpr E v).isNil = false := by
  obtain ⟨s, h, _⟩ := getStringExpr_spec E v
  rw [h]; rfl

theorem entries_eq {e : Expr} {l : List Expr} (h : Entries e l) : (dictOf e).getD [] = l := by
  rcases h with ⟨c, p, t, m, rfl⟩ | ⟨h, rfl⟩
  · rfl
  · unfold dictOf
    split
    · exact absurd rfl (h _ _ _ _ _)
    · rfl

theorem withEntries_new (e : Expr) (l : List Expr) : NewEntries e (withEntries l e) l := by
  unfold withEntries
  split
  · exact .inl ⟨_, _, _, _, _, rfl, rfl⟩
  · rename_i h; exact .inr ⟨h, rfl⟩

/-- setting a key changes no entry with another key -/
theorem without_set (K : Bytes → Prop) (l : List Expr) (k : Bytes) (hk : K k) (v : Expr) (hv : v.isNil = false) :
    entriesWithout K (dictSet k v l).1 = entriesWithout K l := by
  unfold entriesWithout
  have hd : ∀ d, HasKey k d → ¬ ∀ k, K k → ¬ HasKey k d := fun d h h' => h' k hk h
  rcases exists_firstKey k l with h | ⟨pre, d, post, h⟩
  · rw [(C28_set l k v).2.1 h hv]
    rw [List.filter_append]
    have : ¬ ∀ k', K k' → ¬ HasKey k' (Expr.keyValue {} (.string { value := k }) {} v) := hd _ ⟨_, _, _, _, rfl, rfl⟩
    simp [this]
  · rw [(C28_set l k v).1 _ _ _ hv h]
    obtain ⟨rfl, hkd, _⟩ := h
    have h1 := hd _ hkd
    have h2 : ¬ ∀ k', K k' → ¬ HasKey k' (withEntryValue v d) := by
      refine hd _ ?_
      obtain ⟨c, s, p, w, rfl, e⟩ := hkd
      exact ⟨c, s, p, v, rfl, e⟩
    rw [List.filter_append, List.filter_append, List.filter_cons, List.filter_cons, if_neg (by simpa using h2), if_neg (by simpa using h1)]

/-- the loop of dict_set and dict_add, if every argument has a colon -/
theorem dictLoop_ok (E : Env) (over : Bool) : ∀ (xs : List Bytes) (l : List Expr), (∀ x ∈ xs, 58 ∈ x) →
    (dictLoop E over xs l).2 = false ∧
    (∀ k, NoneFor xs k → dictGet k (dictLoop E over xs l).1 = dictGet k l) ∧
    (∀ K : Bytes → Prop, (∀ k, KeyOf xs k → K k) → entriesWithout K (dictLoop E over xs l).1 = entriesWithout K l) ∧
    (over = true → ∀ k v, LastFor xs k v → StringFor E v (dictGet k (dictLoop E over xs l).1)) ∧
    (over = false → ∀ k, ((dictGet k l).isNil = false → dictGet k (dictLoop E over xs l).1 = dictGet k l) ∧
      ((dictGet k l).isNil = true → ∀ v, FirstFor xs k v → StringFor E v (dictGet k (dictLoop E over xs l).1))) := by
  intro xs
  induction xs with
  | nil =>
    intro l _
    refine ⟨rfl, fun _ _ => rfl, fun _ _ => rfl, fun _ k v h => ?_, fun _ k => ⟨fun _ => rfl, fun _ v h => ?_⟩⟩
    · obtain ⟨pre, x, post, h, _⟩ := h; cases pre <;> cases h
    · obtain ⟨pre, x, post, h, _⟩ := h; cases pre <;> cases h
  | cons x xs ih =>
    intro l hx
    have hx' : ∀ y ∈ xs, 58 ∈ y := fun y hy => hx y (List.mem_cons_of_mem _ hy)
    cases hs : splitColon x with
    | none => exact absurd (hx x (List.mem_cons_self ..)) ((splitColon_spec x).2.mp hs)
    | some q =>
      obtain ⟨k0, v0⟩ := q
      have hp : Pair x k0 v0 := ((splitColon_spec x).1 _ _).mp hs
      have hnone : ∀ k, NoneFor (x :: xs) k → NoneFor xs k ∧ k ≠ k0 := by
        intro k h
        refine ⟨fun y hy => h y (List.mem_cons_of_mem _ hy), ?_⟩
        rintro rfl
        exact h x (List.mem_cons_self ..) v0 hp
      have hgs := C28_get_set l k0 (getStringExpr E v0) (getStringExpr_notNil E v0)
      by_cases hb : (over || (dictGet k0 l).isNil) = true
      · have hl : dictLoop E over (x :: xs) l = dictLoop E over xs (dictSet k0 (getStringExpr E v0) l).1 := by
          conv => lhs; unfold dictLoop
          rw [hs]; dsimp only; rw [if_pos hb]
        rw [hl]
        obtain ⟨i1, i2, i3, i4, i5⟩ := ih (dictSet k0 (getStringExpr E v0) l).1 hx'
        refine ⟨i1, ?_, ?_, ?_, ?_⟩
        · intro k h
          obtain ⟨h1, h2⟩ := hnone k h
          rw [i2 k h1, hgs.2 k h2]
        · intro K hK
          rw [i3 K (fun k ⟨y, hy, v, h⟩ => hK k ⟨y, List.mem_cons_of_mem _ hy, v, h⟩)]
          exact without_set K l k0 (hK k0 ⟨x, List.mem_cons_self .., v0, hp⟩) _ (getStringExpr_notNil E v0)
        · rintro ho k v ⟨pre, y, post, e, hy, hn⟩
          cases pre with
          | nil =>
            cases e
            obtain ⟨rfl, rfl⟩ := pair_unique hp hy
            rw [i2 k0 hn, hgs.1]
            exact stringFor E v0
          | cons _ pre => cases e; exact i4 ho k v ⟨pre, y, post, rfl, hy, hn⟩
        · intro ho k
          rw [ho, Bool.false_or] at hb
          have h5 := i5 ho k
          constructor
          · intro hk
            have hne : k ≠ k0 := by rintro rfl; rw [hb] at hk; cases hk
            rw [hgs.2 k hne] at h5
            exact h5.1 hk
          · rintro hk v ⟨pre, y, post, e, hy, hn⟩
            cases pre with
            | nil =>
              cases e
              obtain ⟨rfl, rfl⟩ := pair_unique hp hy
              rw [h5.1 (by rw [hgs.1]; exact getStringExpr_notNil E v0), hgs.1]
              exact stringFor E v0
            | cons z pre =>
              cases e
              have hne : k ≠ k0 := by rintro rfl; exact hn _ (List.mem_cons_self ..) v0 hp
              rw [hgs.2 k hne] at h5
              exact h5.2 hk v ⟨pre, y, post, rfl, hy, fun a ha => hn a (List.mem_cons_of_mem _ ha)⟩
      · have hl : dictLoop E over (x :: xs) l = dictLoop E over xs l := by
          conv => lhs; unfold dictLoop
          rw [hs]; dsimp only; rw [if_neg hb]
        rw [hl]
        have ho' : over = false := by cases over <;> simp_all
        have hk0 : (dictGet k0 l).isNil = false := by cases h : (dictGet k0 l).isNil <;> simp_all
        obtain ⟨i1, i2, i3, i4, i5⟩ := ih l hx'
        refine ⟨i1, fun k h => i2 k (hnone k h).1, ?_, ?_, ?_⟩
        · intro K hK
          exact i3 K (fun k ⟨y, hy, v, h⟩ => hK k ⟨y, List.mem_cons_of_mem _ hy, v, h⟩)
        · intro ho; rw [ho'] at ho; cases ho
        · intro ho k
          refine ⟨(i5 ho k).1, ?_⟩
          rintro hk v ⟨pre, y, post, e, hy, hn⟩
          cases pre with
          | nil =>
            cases e
            obtain ⟨rfl, rfl⟩ := pair_unique hp hy
            rw [hk0] at hk; cases hk
          | cons z pre => cases e; exact (i5 ho k).2 hk v ⟨pre, y, post, rfl, hy, fun a ha => hn a (List.mem_cons_of_mem _ ha)⟩

theorem dictLoop_err (E : Env) (over : Bool) : ∀ (xs : List Bytes) (l : List Expr), (∃ x ∈ xs, 58 ∉ x) → (dictLoop E over xs l).2 = true := by
  intro xs
  induction xs with
  | nil => rintro l ⟨x, hx, _⟩; cases hx
  | cons y xs ih =>
    rintro l ⟨x, hx, hc⟩
    unfold dictLoop
    cases hs : splitColon y with
    | none => rfl
    | some q =>
      have hmem : x ∈ xs := by
        rcases List.mem_cons.mp hx with rfl | h
        · rw [(splitColon_spec x).2.mpr hc] at hs; cases hs
        · exact h
      dsimp only
      split
      · exact ih _ ⟨x, hmem, hc⟩
      · exact ih _ ⟨x, hmem, hc⟩

/-! ### dict_set and dict_add -/

theorem dictPut_ok (E : Env) (over : Bool) (name : Bytes) (xs : List Bytes) (st : St) (l : List Expr) (hl : Entries (attr name st.args) l)
    (hx : ∀ x ∈ xs, 58 ∈ x) : cmdDictPut E over name xs st =
      done { st with args := setAttr name (withEntries (dictLoop E over xs l).1 (attr name st.args)) st.args } := by
  unfold cmdDictPut
  dsimp only
  rw [entries_eq hl, (dictLoop_ok E over xs l hx).1]
  rfl

/-- **C67 (dict_set).** If every argument is a pair, the attribute is afterwards a dictionary in which each key of an argument has the
value of the last pair with this key; the values of all other keys are as before, and so are all other entries, in the same order. -/
theorem C67_dict_set (E : Env) (name : Bytes) (xs : List Bytes) (st : St) (l : List Expr) (hl : Entries (attr name st.args) l)
    (hx : ∀ x ∈ xs, 58 ∈ x) :
    (cmdDictPut E true name xs st).file = true ∧ (cmdDictPut E true name xs st).err = false ∧
    ∃ l', NewEntries (attr name st.args) (attr name (cmdDictPut E true name xs st).st.args) l' ∧
      (∀ k v, LastFor xs k v → StringFor E v (dictGet k l')) ∧ (∀ k, NoneFor xs k → dictGet k l' = dictGet k l) ∧
      entriesWithout (KeyOf xs) l' = entriesWithout (KeyOf xs) l := by
  rw [dictPut_ok E true name xs st l hl hx]
  obtain ⟨_, h2, h3, h4, _⟩ := dictLoop_ok E true xs l hx
  refine ⟨rfl, rfl, _, ?_, h4 rfl, h2, h3 _ fun _ h => h⟩
  show NewEntries _ (attr name (setAttr name _ st.args)) _
  rw [C27_get_set]
  exact withEntries_new _ _

/-- **C67 (dict_add).** Likewise, but a key that has a value keeps it, and a new key gets the value of the first pair. -/
theorem C67_dict_add (E : Env) (name : Bytes) (xs : List Bytes) (st : St) (l : List Expr) (hl : Entries (attr name st.args) l)
    (hx : ∀ x ∈ xs, 58 ∈ x) :
    (cmdDictPut E false name xs st).file = true ∧ (cmdDictPut E false name xs st).err = false ∧
    ∃ l', NewEntries (attr name st.args) (attr name (cmdDictPut E false name xs st).st.args) l' ∧
      (∀ k, (dictGet k l).isNil = false → dictGet k l' = dictGet k l) ∧
      (∀ k v, dictGet k l = .nil → FirstFor xs k v → StringFor E v (dictGet k l')) ∧ (∀ k, NoneFor xs k → dictGet k l' = dictGet k l) ∧
      entriesWithout (KeyOf xs) l' = entriesWithout (KeyOf xs) l := by
  rw [dictPut_ok E false name xs st l hl hx]
  obtain ⟨_, h2, h3, _, h5⟩ := dictLoop_ok E false xs l hx
  refine ⟨rfl, rfl, _, ?_, fun k => (h5 rfl k).1, fun k v hk => (h5 rfl k).2 (by rw [hk]; rfl) v, h2, h3 _ fun _ h => h⟩
  show NewEntries _ (attr name (setAttr name _ st.args)) _
  rw [C27_get_set]
  exact withEntries_new _ _

/-- **C67 (errors).** An argument without a colon makes both commands fail; an attribute that is not a dictionary is then not changed. -/
theorem C67_dict_colon (E : Env) (over : Bool) (name : Bytes) (xs : List Bytes) (st : St) (hx : ∃ x ∈ xs, 58 ∉ x) :
    (cmdDictPut E over name xs st).err = true ∧ (cmdDictPut E over name xs st).file = false ∧
    ((∀ c p l t m, attr name st.args ≠ .dict c p l t m) → (cmdDictPut E over name xs st).st = st) := by
  unfold cmdDictPut
  dsimp only
  rw [dictLoop_err E over xs _ hx, if_pos rfl]
  refine ⟨by split <;> rfl, by split <;> rfl, fun h => ?_⟩
  have : dictOf (attr name st.args) = none := by
    unfold dictOf; split
    · rename_i e; exact absurd e (h _ _ _ _ _)
    · rfl
  rw [this]; rfl

/-! ### dict_remove -/

open Classical in
theorem fold_dictDelete : ∀ (args ks : List Bytes) (l : List Expr), Forall2 DeleteKey args ks → args ≠ [] →
    args.foldl (fun l k => (dictDelete k l).1) l = l.filter (fun x => decide (StringKey x ∧ ∀ k ∈ ks, ¬ HasKey k x)) := by
  intro args
  induction args with
  | nil => intro ks l _ h; exact absurd rfl h
  | cons a args ih =>
    intro ks l h _
    cases h with
    | cons hk h =>
      rename_i k ks
      rw [List.foldl_cons, (C28_delete l a k hk).1]
      cases args with
      | nil =>
        cases h
        rw [List.foldl_nil]
        congr 1; funext x; simp
      | cons b args =>
        rw [ih ks _ h (by simp), List.filter_filter]
        congr 1; funext x
        by_cases h1 : StringKey x <;> by_cases h2 : HasKey k x <;> simp [h1, h2]

open Classical in
/-- **C67 (dict_remove).** Exactly the entries with one of the keys are removed (and those whose key is not a string, if there is an
argument at all); the dictionary keeps everything else; if nothing is left, the attribute is removed. An attribute that is not a
dictionary is left alone. -/
theorem C67_dict_remove (name : Bytes) (args ks : List Bytes) (st : St) (hk : Forall2 DeleteKey args ks) :
    (cmdDictRemove name args st).file = true ∧ (cmdDictRemove name args st).err = false ∧
    ((∀ c p l t m, attr name st.args ≠ .dict c p l t m) → (cmdDictRemove name args st).st = st) ∧
    (∀ c p l t m, attr name st.args = .dict c p l t m → ∃ l',
      l' = l.filter (fun x => decide ((args = [] ∨ StringKey x) ∧ ∀ k ∈ ks, ¬ HasKey k x)) ∧
      (l' ≠ [] → attr name (cmdDictRemove name args st).st.args = .dict c p l' t m) ∧
      (l' = [] → Once name st.args → attr name (cmdDictRemove name args st).st.args = .nil)) := by
  cases hd : dictOf (attr name st.args) with
  | none =>
    have hc : cmdDictRemove name args st = done st := by unfold cmdDictRemove; rw [hd]
    rw [hc]
    refine ⟨rfl, rfl, fun _ => rfl, fun c p l t m h => ?_⟩
    rw [h] at hd; cases hd
  | some l0 =>
    have hc : cmdDictRemove name args st =
        if args.foldl (fun l k => (dictDelete k l).1) l0 = [] then
          done { st with args := (delAttr name (setAttr name (withEntries (args.foldl (fun l k => (dictDelete k l).1) l0) (attr name st.args)) st.args)).1 }
        else done { st with args := setAttr name (withEntries (args.foldl (fun l k => (dictDelete k l).1) l0) (attr name st.args)) st.args } := by
      unfold cmdDictRemove; rw [hd]
    rw [hc]
    refine ⟨by split <;> rfl, by split <;> rfl, fun h => ?_, fun c p l t m h => ?_⟩
    · exfalso
      unfold dictOf at hd
      split at hd
      · rename_i e; exact h _ _ _ _ _ e
      · cases hd
    · have hl0 : l0 = l := by rw [h] at hd; cases hd; rfl
      subst hl0
      refine ⟨_, rfl, ?_⟩
      have hf : args.foldl (fun l k => (dictDelete k l).1) l0 =
          l0.filter (fun x => decide ((args = [] ∨ StringKey x) ∧ ∀ k ∈ ks, ¬ HasKey k x)) := by
        cases args with
        | nil => cases hk; symm; exact List.filter_eq_self.mpr (by intro a _; simp)
        | cons a args =>
          rw [fold_dictDelete (a :: args) ks l0 hk (by simp)]
          congr 1; funext x; simp
      rw [hf]
      constructor
      · intro hne
        rw [if_neg hne]
        show attr name (setAttr name _ st.args) = _
        rw [C27_get_set, h]; rfl
      · intro he ho
        rw [if_pos he]
        show attr name (delAttr name (setAttr name _ st.args)).1 = _
        exact attr_del_once (by rw [C27_get_set, h]; rfl) (once_set (by rw [h]; rfl) ho _)

/-! ### dict_replace_if_equal -/

/-- **C67 (dict_replace_if_equal).** If the attribute is a dictionary and the key has a string with the same label as the old value, or
a name equal to it, the value of the key becomes the new one and all other entries stay; any other value stays; without the key the
command fails and changes nothing. -/
theorem C67_dict_replace_if_equal (E : Env) (name key oldA newA o n : Bytes) (ho : ItemOf oldA o) (hn : ItemOf newA n) (st : St) :
    ((∀ c p l t m, attr name st.args ≠ .dict c p l t m) → cmdDictReplaceIfEqual E name key oldA newA st = done st) ∧
    (∀ c p l t m, attr name st.args = .dict c p l t m →
      (dictGet key l = .nil → cmdDictReplaceIfEqual E name key oldA newA st = fails st) ∧
      (((∃ s, dictGet key l = .string s ∧ Labels.equal s.value o E.pkg = true) ∨ (∃ i, dictGet key l = .ident i ∧ i.name = o)) →
        (cmdDictReplaceIfEqual E name key oldA newA st).err = false ∧ (cmdDictReplaceIfEqual E name key oldA newA st).file = true ∧
        ∃ l', attr name (cmdDictReplaceIfEqual E name key oldA newA st).st.args = .dict c p l' t m ∧ StringFor E n (dictGet key l') ∧
          (∀ k, k ≠ key → dictGet k l' = dictGet k l) ∧ entriesWithout (· = key) l' = entriesWithout (· = key) l) ∧
      ((dictGet key l).isNil = false → (∀ s, dictGet key l = .string s → Labels.equal s.value o E.pkg = false) →
        (∀ i, dictGet key l = .ident i → i.name ≠ o) → cmdDictReplaceIfEqual E name key oldA newA st = done st)) := by
  have e1 : getStringValue oldA = o := itemOf_unique (getStringValue_item _) ho
  have e2 : getStringValue newA = n := itemOf_unique (getStringValue_item _) hn
  constructor
  · intro h
    have : dictOf (attr name st.args) = none := by
      unfold dictOf; split
      · rename_i e; exact absurd e (h _ _ _ _ _)
      · rfl
    unfold cmdDictReplaceIfEqual; rw [this]
  · intro c p l t m h
    have hd : dictOf (attr name st.args) = some l := by rw [h]; rfl
    refine ⟨fun hg => ?_, fun hg => ?_, fun h0 h1 h2 => ?_⟩
    · unfold cmdDictReplaceIfEqual; rw [hd]; dsimp only; rw [hg]
    · have hc : cmdDictReplaceIfEqual E name key oldA newA st =
          done { st with args := setAttr name (withEntries (dictSet key (getStringExpr E n) l).1 (attr name st.args)) st.args } := by
        unfold cmdDictReplaceIfEqual; rw [hd]; dsimp only; rw [e1, e2]
        rcases hg with ⟨s, hg, he⟩ | ⟨i, hg, he⟩
        · rw [hg]; dsimp only; rw [if_pos he]
        · rw [hg]; dsimp only; rw [if_pos he]
      rw [hc]
      have hgs := C28_get_set l key (getStringExpr E n) (getStringExpr_notNil E n)
      refine ⟨rfl, rfl, (dictSet key (getStringExpr E n) l).1, ?_, ?_, hgs.2, without_set (· = key) l key rfl _ (getStringExpr_notNil E n)⟩
      · show attr name (setAttr name _ st.args) = _
        rw [C27_get_set, h]; rfl
      · rw [hgs.1]; exact stringFor E n
    · unfold cmdDictReplaceIfEqual; rw [hd]; dsimp only; rw [e1]
      generalize hg : dictGet key l = e at h0 h1 h2
      cases e <;> first
        | rfl
        | (cases h0; done)
        | (rename_i s; dsimp only; rw [if_neg (by rw [h1 s rfl]; simp)])
        | (rename_i s; dsimp only; rw [if_neg (h2 s rfl)])

/-! ### dict_list_add -/

theorem fold_addList (w : World) (ho : w.opaque_ .nil = none) (E : Env) (sorted : Bool) : ∀ (vals : List Bytes) (e : Expr) (v : List Expr), Eval w e v →
    ∃ v', Eval w (vals.foldl (fun e a => addValueToList E.dwc e E.pkg (getStringExpr E a) sorted) e) v' ∧
      SameSet E.pkg (v ++ vals.map (getStringExpr E)) v' := by
  intro vals
  induction vals with
  | nil => intro e v h; exact ⟨v, h, by rw [List.map_nil, List.append_nil]; exact sameSet_refl _ _⟩
  | cons a vals ih =>
    intro e v h
    obtain ⟨v1, h1, h2⟩ := eval_add w ho E.dwc e E.pkg (getStringExpr E a) sorted v h
    obtain ⟨v2, h3, h4⟩ := ih _ v1 h1
    refine ⟨v2, h3, sameSet_trans ?_ h4⟩
    have := sameSet_append (vals.map (getStringExpr E)) h2
    simpa using this

theorem forall2_stringFor (E : Env) (vals : List Bytes) : Forall2 (StringFor E) vals (vals.map (getStringExpr E)) := by
  induction vals with
  | nil => exact .nil
  | cons a l ih => exact .cons (stringFor E a) ih

/-- **C67 (dict_list_add).** The value of the key is afterwards the old list (the empty one, if there was none) with the given items and
nothing else; all other entries stay. -/
theorem C67_dict_list_add (w : World) (ho : w.opaque_ .nil = none) (E : Env) (name key : Bytes) (vals : List Bytes) (st : St) (l v : List Expr)
    (hl : Entries (attr name st.args) l) (hv : ValueOr w (dictGet key l) v) :
    (cmdDictListAdd E name key vals st).file = true ∧ (cmdDictListAdd E name key vals st).err = false ∧
    ∃ l' xs v', NewEntries (attr name st.args) (attr name (cmdDictListAdd E name key vals st).st.args) l' ∧
      Forall2 (StringFor E) vals xs ∧ Eval w (dictGet key l') v' ∧ SameSet E.pkg (v ++ xs) v' ∧
      (∀ k, k ≠ key → dictGet k l' = dictGet k l) ∧ entriesWithout (· = key) l' = entriesWithout (· = key) l := by
  refine ⟨rfl, rfl, ?_⟩
  have hprev : Eval w (if (dictGet key l).isNil = true then .list {} {} [] {} false else dictGet key l) v := by
    rcases hv with hv | ⟨hv, rfl⟩
    · rw [if_neg (by rw [notNil_of_eval ho hv]; simp)]; exact hv
    · rw [hv]; exact .list
  obtain ⟨v', h1, h2⟩ := fold_addList w ho E true vals _ v hprev
  have hnn := notNil_of_eval ho h1
  have hc : (cmdDictListAdd E name key vals st).st.args = setAttr name (withEntries (dictSet key (vals.foldl
      (fun e a => addValueToList E.dwc e E.pkg (getStringExpr E a) true) (if (dictGet key l).isNil = true then .list {} {} [] {} false else dictGet key l)) l).1
      (attr name st.args)) st.args := by
    unfold cmdDictListAdd done
    dsimp only
    rw [entries_eq hl]
  rw [hc, C27_get_set]
  have hgs := C28_get_set l key _ hnn
  exact ⟨_, _, v', withEntries_new _ _, forall2_stringFor E vals, by rw [hgs.1]; exact h1, h2, hgs.2, without_set (· = key) l key rfl _ hnn⟩

/-! ### set_select -/

theorem forall2_split {α β : Type} {R : α → β → Prop} {ks : List α} {l : List β} (h : Forall2 R ks l) : ∀ {pre d post}, l = pre ++ d :: post →
    ∃ k1 k k2, ks = k1 ++ k :: k2 ∧ Forall2 R k1 pre ∧ R k d ∧ Forall2 R k2 post := by
  induction h with
  | nil => intro pre d post e; cases pre <;> cases e
  | cons hr h ih =>
    intro pre d post e
    cases pre with
    | nil => cases e; exact ⟨[], _, _, rfl, .nil, hr, h⟩
    | cons _ pre =>
      cases e
      obtain ⟨k1, k, k2, rfl, h1, h2, h3⟩ := ih rfl
      exact ⟨_ :: k1, k, k2, rfl, .cons hr h1, h2, h3⟩

theorem hasKey_unique {k k' : Bytes} {x : Expr} (h : HasKey k x) (h' : HasKey k' x) : k = k' := by
  obtain ⟨_, s, _, _, rfl, e⟩ := h
  obtain ⟨_, s', _, _, e1, e'⟩ := h'
  cases e1
  exact e.symm.trans e'

theorem forall2_mem {α β : Type} {R : α → β → Prop} {ks : List α} {l : List β} (h : Forall2 R ks l) {x : β} (hx : x ∈ l) : ∃ k ∈ ks, R k x := by
  induction h with
  | nil => cases hx
  | cons hr _ ih =>
    rcases List.mem_cons.mp hx with rfl | hx
    · exact ⟨_, List.mem_cons_self .., hr⟩
    · obtain ⟨k, hk, hr⟩ := ih hx; exact ⟨k, List.mem_cons_of_mem _ hk, hr⟩

theorem forall2_app {α β : Type} {R : α → β → Prop} {k1 k2 : List α} {l1 l2 : List β} (h : Forall2 R k1 l1) (h' : Forall2 R k2 l2) :
    Forall2 R (k1 ++ k2) (l1 ++ l2) := by
  induction h with
  | nil => exact h'
  | cons hr _ ih => exact .cons hr ih

/-- the keys of a dictionary after setting one -/
theorem keys_set {ks : List Bytes} {l : List Expr} (h : Forall2 HasKey ks l) (hnd : ks.Nodup) (k : Bytes) (v : Expr) (hv : v.isNil = false) :
    ∃ ks', Forall2 HasKey ks' (dictSet k v l).1 ∧ ks'.Nodup ∧ ∀ k', k' ∈ ks' ↔ k' ∈ ks ∨ k' = k := by
  rcases exists_firstKey k l with hf | ⟨pre, d, post, hf⟩
  · rw [(C28_set l k v).2.1 hf hv]
    have hnew : k ∉ ks := by
      intro hm
      clear hnd
      induction h with
      | nil => cases hm
      | cons hr _ ih =>
        rcases List.mem_cons.mp hm with rfl | hm
        · exact hf _ (List.mem_cons_self ..) hr
        · exact ih (fun x hx => hf x (List.mem_cons_of_mem _ hx)) hm
    refine ⟨ks ++ [k], forall2_app h (.cons ⟨_, _, _, _, rfl, rfl⟩ .nil), ?_, by simp⟩
    rw [List.nodup_append]
    refine ⟨hnd, by simp, ?_⟩
    intro a ha b hb
    rw [List.mem_singleton] at hb
    rintro rfl
    exact hnew (hb ▸ ha)
  · rw [(C28_set l k v).1 _ _ _ hv hf]
    obtain ⟨e, hk, _⟩ := hf
    obtain ⟨k1, k0, k2, rfl, h1, h2, h3⟩ := forall2_split h e
    cases hasKey_unique hk h2
    refine ⟨k1 ++ k :: k2, forall2_app h1 (.cons ?_ h3), hnd, ?_⟩
    · obtain ⟨c, s, p, w, rfl, e'⟩ := hk
      exact ⟨c, s, p, v, rfl, e'⟩
    · intro k'; constructor
      · exact .inl
      · rintro (h | rfl)
        · exact h
        · simp

theorem valuesFor_cons (q : Bytes × Bytes) (ps : List (Bytes × Bytes)) (k : Bytes) :
    valuesFor (q :: ps) k = if q.1 = k then q.2 :: valuesFor ps k else valuesFor ps k := by
  unfold valuesFor
  by_cases h : q.1 = k <;> simp [h]

theorem selectLoop_spec (w : World) (ho : w.opaque_ .nil = none) (E : Env) (name : Bytes) : ∀ (ps : List (Bytes × Bytes)) (l : List Expr) (ks : List Bytes),
    Forall2 HasKey ks l → ks.Nodup →
    ∃ l', selectLoop E name (ps.flatMap fun q => [q.1, q.2]) l = some l' ∧
      (∀ U : Bytes → List Expr, E.isList name = true → (∀ k, ValueOr w (dictGet k l) (U k)) →
        (∃ ks', Forall2 HasKey ks' l' ∧ ks'.Nodup ∧ ∀ k, k ∈ ks' ↔ k ∈ ks ∨ k ∈ ps.map (·.1)) ∧
        ∀ k, ∃ v', ValueOr w (dictGet k l') v' ∧ (valuesFor ps k ≠ [] → Eval w (dictGet k l') v') ∧
          SameSet E.pkg (U k ++ (valuesFor ps k).map (getStringExpr E)) v') ∧
      (E.isList name = false →
        (∃ ks', Forall2 HasKey ks' l' ∧ ks'.Nodup ∧ ∀ k, k ∈ ks' ↔ k ∈ ks ∨ k ∈ ps.map (·.1)) ∧
        ∀ k, (valuesFor ps k = [] → dictGet k l' = dictGet k l) ∧
          ∀ v, (valuesFor ps k).getLast? = some v → dictGet k l' = getStringExpr E v) := by
  intro ps
  induction ps with
  | nil =>
    intro l ks hk hnd
    refine ⟨l, rfl, fun U _ hU => ⟨⟨ks, hk, hnd, by simp⟩, fun k => ⟨U k, hU k, fun h => absurd rfl h, ?_⟩⟩, fun _ => ⟨⟨ks, hk, hnd, by simp⟩, fun k => ⟨fun _ => rfl, fun v h => by cases h⟩⟩⟩
    show SameSet E.pkg (U k ++ []) (U k)
    rw [List.append_nil]
    exact sameSet_refl _ _
  | cons q ps ih =>
    intro l ks hk hnd
    obtain ⟨k0, v0⟩ := q
    cases hl : E.isList name with
    | true =>
      -- the value at k0 after the step
      have hstep : selectLoop E name (((k0, v0) :: ps).flatMap fun q => [q.1, q.2]) l =
          selectLoop E name (ps.flatMap fun q => [q.1, q.2]) (dictSet k0 (addValueToList E.dwc (if (dictGet k0 l).isNil then .list {} {} [] {} false else dictGet k0 l)
            E.pkg (getStringExpr E v0) (!mustNotBeSorted name)) l).1 := by
        show selectLoop E name (k0 :: v0 :: ps.flatMap fun q => [q.1, q.2]) l = _
        conv => lhs; unfold selectLoop
        rw [if_pos hl]
      rw [hstep]
      generalize hx : addValueToList E.dwc (if (dictGet k0 l).isNil then .list {} {} [] {} false else dictGet k0 l) E.pkg (getStringExpr E v0) (!mustNotBeSorted name) = x
      have hxe : ∀ u, ValueOr w (dictGet k0 l) u → ∃ u', Eval w x u' ∧ SameSet E.pkg (u ++ [getStringExpr E v0]) u' := by
        intro u hu
        rw [← hx]
        refine eval_add w ho _ _ _ _ _ u ?_
        rcases hu with hu | ⟨hu, rfl⟩
        · rw [if_neg (by rw [notNil_of_eval ho hu]; simp)]; exact hu
        · rw [hu]; exact .list
      by_cases hxn : x.isNil = true
      · -- cannot happen if the old value has a meaning
        have hxn' : x = .nil := by cases x <;> first | rfl | cases hxn
        subst hxn'
        rw [(C28_set l k0 .nil).2.2]
        obtain ⟨l', h1, _, _⟩ := ih l ks hk hnd
        refine ⟨l', h1, fun U _ hU => ?_, fun h => by cases h⟩
        obtain ⟨u', hu, _⟩ := hxe (U k0) (hU k0)
        have := notNil_of_eval ho hu
        cases this
      · have hxn' : x.isNil = false := by simpa using hxn
        obtain ⟨ks', hk', hnd', hks'⟩ := keys_set hk hnd k0 x hxn'
        obtain ⟨l', h1, h2, _⟩ := ih (dictSet k0 x l).1 ks' hk' hnd'
        refine ⟨l', h1, fun U _ hU => ?_, fun h => by cases h⟩
        obtain ⟨u', hu, hsame⟩ := hxe (U k0) (hU k0)
        have hgs := C28_get_set l k0 x hxn'
        have hU' : ∀ k, ValueOr w (dictGet k (dictSet k0 x l).1) (if k = k0 then u' else U k) := by
          intro k
          by_cases hkk : k = k0
          · subst hkk; rw [if_pos rfl, hgs.1]; exact .inl hu
          · rw [if_neg hkk, hgs.2 k hkk]; exact hU k
        obtain ⟨⟨ks2, g1, g2, g3⟩, g4⟩ := h2 _ hl hU'
        refine ⟨⟨ks2, g1, g2, ?_⟩, ?_⟩
        · intro k; rw [g3, hks']; simp only [List.map_cons, List.mem_cons]; grind
        · intro k
          obtain ⟨v', a1, a2, a3⟩ := g4 k
          rw [valuesFor_cons]
          by_cases hkk : k = k0
          · subst hkk
            rw [if_pos rfl] at a3 ⊢
            refine ⟨v', a1, fun _ => ?_, ?_⟩
            · rcases a1 with a1 | ⟨a1, rfl⟩
              · exact a1
              · exfalso
                -- the value at k is not nil: it is u' plus something
                by_cases hne : valuesFor ps k ≠ []
                · exact absurd (notNil_of_eval ho (a2 hne)) (by rw [a1]; simp [Expr.isNil])
                · have hem : valuesFor ps k = [] := by simpa using hne
                  rw [hem, List.map_nil, List.append_nil] at a3
                  have : getStringExpr E v0 ∈ U k ++ [getStringExpr E v0] := by simp
                  obtain ⟨y, hy, _⟩ := hsame.1 _ this
                  obtain ⟨z, hz, _⟩ := a3.1 _ hy
                  cases hz
            · refine sameSet_trans ?_ a3
              have := sameSet_append ((valuesFor ps k).map (getStringExpr E)) hsame
              simpa using this
          · rw [if_neg hkk] at a3
            rw [if_neg (fun h => hkk h.symm)]
            exact ⟨v', a1, a2, a3⟩
    | false =>
      have hstep : selectLoop E name (((k0, v0) :: ps).flatMap fun q => [q.1, q.2]) l =
          selectLoop E name (ps.flatMap fun q => [q.1, q.2]) (dictSet k0 (getStringExpr E v0) l).1 := by
        show selectLoop E name (k0 :: v0 :: ps.flatMap fun q => [q.1, q.2]) l = _
        conv => lhs; unfold selectLoop
        rw [if_neg (by rw [hl]; simp)]
      rw [hstep]
      have hxn' := getStringExpr_notNil E v0
      obtain ⟨ks', hk', hnd', hks'⟩ := keys_set hk hnd k0 _ hxn'
      obtain ⟨l', h1, _, h2⟩ := ih (dictSet k0 (getStringExpr E v0) l).1 ks' hk' hnd'
      refine ⟨l', h1, fun _ h => (by cases h), fun _ => ?_⟩
      have hgs := C28_get_set l k0 _ hxn'
      obtain ⟨⟨ks2, g1, g2, g3⟩, g4⟩ := h2 hl
      refine ⟨⟨ks2, g1, g2, ?_⟩, ?_⟩
      · intro k; rw [g3, hks']; simp only [List.map_cons, List.mem_cons]; grind
      · intro k
        rw [valuesFor_cons]
        by_cases hkk : k0 = k
        · subst hkk
          rw [if_pos rfl]
          refine ⟨fun h => (by cases h), fun v h => ?_⟩
          by_cases hem : valuesFor ps k0 = []
          · rw [hem] at h; cases h
            rw [(g4 k0).1 hem, hgs.1]; rfl
          · refine (g4 k0).2 v ?_
            cases hvs : valuesFor ps k0 with
            | nil => exact absurd hvs hem
            | cons a as => rw [hvs] at h; simpa using h
        · rw [if_neg hkk]
          rw [← hgs.2 k (fun h => hkk h.symm)]
          exact g4 k

theorem selectLoop_odd (E : Env) (name : Bytes) : ∀ (n : Nat) (xs : List Bytes) (l : List Expr), xs.length = 2 * n + 1 → selectLoop E name xs l = none := by
  intro n
  induction n with
  | zero =>
    intro xs l h
    match xs, h with
    | [a], _ => rfl
  | succ n ih =>
    intro xs l h
    match xs, h with
    | a :: b :: xs, h =>
      unfold selectLoop
      have : xs.length = 2 * n + 1 := by simp at h; omega
      dsimp only
      split
      · exact ih _ _ this
      · exact ih _ _ this

/-- **C67 (set_select).** With pairs of a key and a value as arguments, the attribute is afterwards a select with one entry for each
key. For an attribute that is a list, the value of the entry is a list of exactly the values given for the key; otherwise it is the last
of them. With an odd number of arguments the command fails and changes nothing. -/
theorem C67_set_select (w : World) (ho : w.opaque_ .nil = none) (E : Env) (name : Bytes) (xs : List Bytes) (st : St) :
    (xs.length % 2 = 1 → cmdSetSelect E name xs st = fails st) ∧
    (∀ ps : List (Bytes × Bytes), xs = ps.flatMap (fun q => [q.1, q.2]) →
      (cmdSetSelect E name xs st).file = true ∧ (cmdSetSelect E name xs st).err = false ∧
      ∃ l ks, IsSelectOf (attr name (cmdSetSelect E name xs st).st.args) l ∧
        Forall2 HasKey ks l ∧ ks.Nodup ∧ (∀ k, k ∈ ks ↔ k ∈ ps.map (·.1)) ∧
        (E.isList name = true → ∀ k ∈ ps.map (·.1), ∃ ys v', Forall2 (StringFor E) (valuesFor ps k) ys ∧ Eval w (dictGet k l) v' ∧ SameSet E.pkg ys v') ∧
        (E.isList name = false → ∀ k v, (valuesFor ps k).getLast? = some v → StringFor E v (dictGet k l))) := by
  constructor
  · intro h
    unfold cmdSetSelect
    rw [selectLoop_odd E name (xs.length / 2) xs [] (by omega)]
  · rintro ps rfl
    obtain ⟨l, h1, h2, h3⟩ := selectLoop_spec w ho E name ps [] [] .nil (by simp)
    have hc : cmdSetSelect E name (ps.flatMap fun q => [q.1, q.2]) st = done { st with args := setAttr name (.call {} (.ident { name := b!"select" }) {} [.dict {} {} l {} false] {} false false) st.args } := by
      unfold cmdSetSelect; rw [h1]
    rw [hc]
    refine ⟨rfl, rfl, l, ?_⟩
    have hsel : IsSelectOf (attr name (done { st with args := setAttr name (.call {} (.ident { name := b!"select" }) {} [.dict {} {} l {} false] {} false false) st.args }).st.args) l := by
      show IsSelectOf (attr name (setAttr name _ st.args)) l
      rw [C27_get_set]
      exact ⟨_, _, _, _, _, _, _, _, _, _, _, rfl⟩
    cases hl : E.isList name with
    | true =>
      obtain ⟨⟨ks, a1, a2, a3⟩, a4⟩ := h2 (fun _ => []) hl (fun k => .inr ⟨rfl, rfl⟩)
      refine ⟨ks, hsel, a1, a2, by simpa using a3, fun _ k hk => ?_, fun h => by cases h⟩
      obtain ⟨v', b1, b2, b3⟩ := a4 k
      refine ⟨_, v', forall2_stringFor E _, b2 ?_, by simpa using b3⟩
      obtain ⟨q, hq, rfl⟩ := List.mem_map.mp hk
      intro hem
      have : q.2 ∈ valuesFor ps q.1 := List.mem_map.mpr ⟨q, List.mem_filter.mpr ⟨hq, by simp⟩, rfl⟩
      rw [hem] at this; cases this
    | false =>
      obtain ⟨⟨ks, a1, a2, a3⟩, a4⟩ := h3 hl
      refine ⟨ks, hsel, a1, a2, by simpa using a3, fun h => (by cases h), fun _ k v hv => ?_⟩
      rw [(a4 k).2 v hv]
      exact stringFor E v

/-! ### Examples -/

/-- the hypotheses of `C67_dict_set` and `C67_dict_add` can be met -/
example : Entries (.dict {} {} [.keyValue {} (.string { value := b!"a" }) {} (.ident { name := b!"X" })] {} false)
    [.keyValue {} (.string { value := b!"a" }) {} (.ident { name := b!"X" })] ∧ (58 : UInt8) ∈ b!"a:b" ∧ LastFor [b!"a:b", b!"a:c"] b!"a" b!"c" ∧
    FirstFor [b!"a:b", b!"a:c"] b!"a" b!"b" := by
  refine ⟨.inl ⟨_, _, _, _, rfl⟩, by decide, ⟨[b!"a:b"], b!"a:c", [], rfl, ⟨rfl, by decide⟩, ?_⟩, ⟨[], b!"a:b", [b!"a:c"], rfl, ⟨rfl, by decide⟩, ?_⟩⟩
  · intro x hx; cases hx
  · intro x hx; cases hx

/-- the pairs of `C67_set_select`, with a key given twice -/
example : [b!"k", b!"1", b!"k", b!"2"] = [(b!"k", b!"1"), (b!"k", b!"2")].flatMap (fun q => [q.1, q.2]) ∧
    valuesFor [(b!"k", b!"1"), (b!"k", b!"2")] b!"k" = [b!"1", b!"2"] := ⟨rfl, by decide⟩

/-- **C67 (finding).** The entries set before an argument without a colon stay although the command fails. -/
theorem C67_partial_update (E : Env) : (cmdDictPut E true b!"d" [b!"a:1", b!"x"] ⟨{}, .nil, [kwd b!"d" (.dict {} {} [] {} false)], []⟩).err = true ∧
    ∃ c p x t m, attr b!"d" (cmdDictPut E true b!"d" [b!"a:1", b!"x"] ⟨{}, .nil, [kwd b!"d" (.dict {} {} [] {} false)], []⟩).st.args = .dict c p [x] t m :=
  ⟨rfl, _, _, _, _, _, rfl⟩

end Verif.Props.Commands
