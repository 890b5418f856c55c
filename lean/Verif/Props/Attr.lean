import Verif.Model.Attr
/-
C27 (attributes of a rule) and C28 (dictionaries).
-/
namespace Verif.Props.Attr
open Verif Verif.Syntax Verif.Edit

/-! ### Specification -/

/-- the argument `key = value` -/
def Defines (key : Bytes) (a : Expr) : Prop := ∃ c i p o lb r, a = .assign c (.ident i) p o lb r ∧ i.name = key

/-- Among the arguments `l`, the first definition of `key` is `d`, between `pre` and `post`. -/
def FirstDef (l : List Expr) (key : Bytes) (pre : List Expr) (d : Expr) (post : List Expr) : Prop :=
  l = pre ++ d :: post ∧ Defines key d ∧ ∀ x ∈ pre, ¬ Defines key x

/-- the value of a definition -/
def valueOf : Expr → Expr
  | .assign _ _ _ _ _ r => r
  | _ => .nil

/-- the definition with another value -/
def withValue (v : Expr) : Expr → Expr
  | .assign c x p o lb _ => .assign c x p o lb v
  | e => e

/-- the definition with another name -/
def withName (n : Bytes) : Expr → Expr
  | .assign c (.ident i) p o lb r => .assign c (.ident { i with name := n }) p o lb r
  | e => e

/-- a dictionary entry whose key is the string `key` -/
def HasKey (key : Bytes) (a : Expr) : Prop := ∃ c k p v, a = .keyValue c (.string k) p v ∧ k.value = key

def FirstKey (l : List Expr) (key : Bytes) (pre : List Expr) (d : Expr) (post : List Expr) : Prop :=
  l = pre ++ d :: post ∧ HasKey key d ∧ ∀ x ∈ pre, ¬ HasKey key x

def entryValue : Expr → Expr
  | .keyValue _ _ _ v => v
  | _ => .nil

def withEntryValue (v : Expr) : Expr → Expr
  | .keyValue c k p _ => .keyValue c k p v
  | e => e

/-! ### Attributes -/

theorem not_defines_ne {key : Bytes} {c : Comments} {i : IdentN} {p : Pos} {o : Bytes} {lb : Bool} {r : Expr}
    (h : ¬ Defines key (.assign c (.ident i) p o lb r)) : i.name ≠ key := fun e => h ⟨c, i, p, o, lb, r, rfl, e⟩

theorem exists_first (key : Bytes) (l : List Expr) : (∀ x ∈ l, ¬ Defines key x) ∨ ∃ pre d post, FirstDef l key pre d post := by
  induction l with
  | nil => exact .inl (by simp)
  | cons x l ih =>
    by_cases h : Defines key x
    · exact .inr ⟨[], x, l, rfl, h, by simp⟩
    · rcases ih with ih | ⟨pre, d, post, e, hd, hp⟩
      · exact .inl (by intro y hy; rcases List.mem_cons.mp hy with rfl | hy; exact h; exact ih y hy)
      · refine .inr ⟨x :: pre, d, post, by rw [e]; rfl, hd, ?_⟩
        intro y hy; rcases List.mem_cons.mp hy with rfl | hy; exact h; exact hp y hy

theorem attr_skip (key : Bytes) (x : Expr) (l : List Expr) (h : ¬ Defines key x) : attr key (x :: l) = attr key l := by
  rw [attr.eq_def]
  split
  · cases ‹_ :: _ = []›
  · rename_i e; cases e; rw [if_pos (not_defines_ne h)]
  · rename_i e; cases e; rfl

theorem attr_skips (key : Bytes) (pre l : List Expr) (h : ∀ x ∈ pre, ¬ Defines key x) : attr key (pre ++ l) = attr key l := by
  induction pre with
  | nil => rfl
  | cons x pre ih => rw [List.cons_append, attr_skip _ _ _ (h x (by simp)), ih (fun y hy => h y (by simp [hy]))]

/-- **C27 (get).** Reading an attribute gives the value of its first definition, and nothing if it is not defined. -/
theorem C27_get (l : List Expr) (key : Bytes) :
    (∀ pre d post, FirstDef l key pre d post → attr key l = valueOf d) ∧
    ((∀ x ∈ l, ¬ Defines key x) → attr key l = .nil) := by
  constructor
  · rintro pre d post ⟨rfl, ⟨c, i, p, o, lb, r, rfl, hk⟩, hp⟩
    rw [attr_skips _ _ _ hp, attr, if_neg (by simpa using hk)]; rfl
  · intro h
    have := attr_skips key l [] h
    rw [List.append_nil] at this
    exact this

theorem setFirst_skip (key : Bytes) (v x : Expr) (l : List Expr) (h : ¬ Defines key x) :
    setFirst key v (x :: l) = (setFirst key v l).map (x :: ·) := by
  rw [setFirst.eq_def]
  split
  · cases ‹_ :: _ = []›
  · rename_i e; cases e; rw [if_pos (not_defines_ne h)]
  · rename_i e; cases e; rfl

theorem setFirst_skips (key : Bytes) (v : Expr) (pre l : List Expr) (h : ∀ x ∈ pre, ¬ Defines key x) :
    setFirst key v (pre ++ l) = (setFirst key v l).map (pre ++ ·) := by
  induction pre with
  | nil => simp
  | cons x pre ih =>
    rw [List.cons_append, setFirst_skip _ _ _ _ (h x (by simp)), ih (fun y hy => h y (by simp [hy])), Option.map_map]
    rfl

/-- **C27 (set).** Setting an attribute replaces the value of its first definition in place and changes nothing else; an
attribute that is not defined yet is appended. -/
theorem C27_set (l : List Expr) (key : Bytes) (v : Expr) :
    (∀ pre d post, FirstDef l key pre d post → setAttr key v l = pre ++ withValue v d :: post) ∧
    ((∀ x ∈ l, ¬ Defines key x) →
      setAttr key v l = l ++ [.assign {} (.ident { name := key }) {} b!"=" false v]) := by
  constructor
  · rintro pre d post ⟨rfl, ⟨c, i, p, o, lb, r, rfl, hk⟩, hp⟩
    unfold setAttr
    rw [setFirst_skips _ _ _ _ hp, setFirst, if_neg (by simpa using hk)]; rfl
  · intro h
    unfold setAttr
    have := setFirst_skips key v l [] h
    rw [List.append_nil] at this
    rw [this]; rfl

theorem valueOf_withValue (v : Expr) {key : Bytes} {d : Expr} (h : Defines key d) : valueOf (withValue v d) = v := by
  obtain ⟨c, i, p, o, lb, r, rfl, _⟩ := h; rfl

theorem defines_withValue (v : Expr) {key key' : Bytes} {d : Expr} (h : Defines key d) :
    Defines key' (withValue v d) ↔ Defines key' d := by
  obtain ⟨c, i, p, o, lb, r, rfl, _⟩ := h
  constructor
  · rintro ⟨_, _, _, _, _, _, e, hk⟩; cases e; exact ⟨_, _, _, _, _, _, rfl, hk⟩
  · rintro ⟨_, _, _, _, _, _, e, hk⟩; cases e; exact ⟨_, _, _, _, _, _, rfl, hk⟩

/-- **C27 (get after set).** -/
theorem C27_get_set (l : List Expr) (key : Bytes) (v : Expr) : attr key (setAttr key v l) = v := by
  rcases exists_first key l with h | ⟨pre, d, post, h⟩
  · rw [(C27_set l key v).2 h, attr_skips _ _ _ h, attr, if_neg (by simp)]
  · rw [(C27_set l key v).1 _ _ _ h, (C27_get _ key).1 pre (withValue v d) post
      ⟨rfl, (defines_withValue v h.2.1).mpr h.2.1, h.2.2⟩, valueOf_withValue v h.2.1]

theorem attr_append (key : Bytes) (a b b' : List Expr) (h : attr key b = attr key b') : attr key (a ++ b) = attr key (a ++ b') := by
  induction a with
  | nil => exact h
  | cons x a ih =>
    by_cases hx : Defines key x
    · obtain ⟨c, i, p, o, lb, r, rfl, hk⟩ := hx
      rw [List.cons_append, List.cons_append, attr, attr, if_neg (by simpa using hk), if_neg (by simpa using hk)]
    · rw [List.cons_append, List.cons_append, attr_skip _ _ _ hx, attr_skip _ _ _ hx, ih]

theorem defines_unique {k k' : Bytes} {d : Expr} (h : Defines k d) (h' : Defines k' d) : k = k' := by
  obtain ⟨c, i, p, o, lb, r, rfl, hk⟩ := h
  obtain ⟨_, _, _, _, _, _, e, hk'⟩ := h'
  cases e; rw [← hk, ← hk']

/-- **C27 (other attributes).** Setting an attribute does not change any other attribute. -/
theorem C27_get_set_other (l : List Expr) (key key' : Bytes) (v : Expr) (hne : key' ≠ key) :
    attr key' (setAttr key v l) = attr key' l := by
  rcases exists_first key l with h | ⟨pre, d, post, h⟩
  · rw [(C27_set l key v).2 h]
    have e : attr key' [Expr.assign {} (.ident { name := key }) {} b!"=" false v] = attr key' [] := by
      exact attr_skip key' _ [] (by rintro ⟨_, _, _, _, _, _, e, hk⟩; cases e; exact hne hk.symm)
    simpa using attr_append key' l _ _ e
  · rw [(C27_set l key v).1 _ _ _ h, h.1]
    apply attr_append
    rw [attr_skip, attr_skip]
    · exact fun hc => hne (defines_unique hc h.2.1)
    · exact fun hc => hne (defines_unique ((defines_withValue v h.2.1).mp hc) h.2.1)

theorem delAttr_skip (key : Bytes) (x : Expr) (l : List Expr) (h : ¬ Defines key x) :
    delAttr key (x :: l) = (x :: (delAttr key l).1, (delAttr key l).2) := by
  rw [delAttr.eq_def]
  split
  · cases ‹_ :: _ = []›
  · rename_i e; cases e; rw [if_pos (not_defines_ne h)]
  · rename_i e; cases e; rfl

theorem delAttr_skips (key : Bytes) (pre l : List Expr) (h : ∀ x ∈ pre, ¬ Defines key x) :
    delAttr key (pre ++ l) = (pre ++ (delAttr key l).1, (delAttr key l).2) := by
  induction pre with
  | nil => rfl
  | cons x pre ih =>
    rw [List.cons_append, delAttr_skip _ _ _ (h x (by simp)), ih (fun y hy => h y (by simp [hy]))]; rfl

/-- **C27 (delete).** Deleting an attribute removes exactly its first definition and returns the value; deleting an undefined
attribute changes nothing and returns nothing. -/
theorem C27_delete (l : List Expr) (key : Bytes) :
    (∀ pre d post, FirstDef l key pre d post → delAttr key l = (pre ++ post, valueOf d)) ∧
    ((∀ x ∈ l, ¬ Defines key x) → delAttr key l = (l, .nil)) := by
  constructor
  · rintro pre d post ⟨rfl, ⟨c, i, p, o, lb, r, rfl, hk⟩, hp⟩
    rw [delAttr_skips _ _ _ hp, delAttr, if_neg (by simpa using hk)]; rfl
  · intro h
    have := delAttr_skips key l [] h
    rw [List.append_nil] at this
    rw [this]; simp [delAttr]

/-- **C27 (get after delete).** If the attribute is defined once, it is gone; the others keep their values in any case. -/
theorem C27_get_delete (l : List Expr) (key : Bytes) :
    (∀ pre d post, FirstDef l key pre d post → (∀ x ∈ post, ¬ Defines key x) → attr key (delAttr key l).1 = .nil) ∧
    ∀ key', key' ≠ key → attr key' (delAttr key l).1 = attr key' l := by
  constructor
  · intro pre d post h hpost
    rw [(C27_delete l key).1 _ _ _ h]
    refine (C27_get (pre ++ post) key).2 ?_
    intro x hx
    rcases List.mem_append.mp hx with hx | hx
    · exact h.2.2 x hx
    · exact hpost x hx
  · intro key' hne
    rcases exists_first key l with h | ⟨pre, d, post, h⟩
    · rw [(C27_delete l key).2 h]
    · rw [(C27_delete l key).1 _ _ _ h, h.1]
      apply attr_append
      rw [attr_skip]
      exact fun hc => hne (defines_unique hc h.2.1)

theorem renameFirst_skip (key n : Bytes) (x : Expr) (l : List Expr) (h : ¬ Defines key x) :
    renameFirst key n (x :: l) = (renameFirst key n l).map (x :: ·) := by
  rw [renameFirst.eq_def]
  split
  · cases ‹_ :: _ = []›
  · rename_i e; cases e; rw [if_pos (not_defines_ne h)]
  · rename_i e; cases e; rfl

theorem renameFirst_skips (key n : Bytes) (pre l : List Expr) (h : ∀ x ∈ pre, ¬ Defines key x) :
    renameFirst key n (pre ++ l) = (renameFirst key n l).map (pre ++ ·) := by
  induction pre with
  | nil => simp
  | cons x pre ih =>
    rw [List.cons_append, renameFirst_skip _ _ _ _ (h x (by simp)), ih (fun y hy => h y (by simp [hy])), Option.map_map]
    rfl

/-- **C27 (rename).** Renaming fails iff the new name has a value already or the old one is not defined; otherwise the first
definition of the old name gets the new name, and nothing else changes. -/
theorem C27_rename (l : List Expr) (old new : Bytes) :
    ((attr new l).isNil = false → renameAttribute old new l = none) ∧
    ((∀ x ∈ l, ¬ Defines old x) → renameAttribute old new l = none) ∧
    (∀ pre d post, (attr new l).isNil = true → FirstDef l old pre d post →
      renameAttribute old new l = some (pre ++ withName new d :: post)) := by
  refine ⟨fun h => by simp [renameAttribute, h], fun h => ?_, ?_⟩
  · unfold renameAttribute
    have := renameFirst_skips old new l [] h
    rw [List.append_nil] at this
    rw [this]; simp [renameFirst]
  · rintro pre d post hn ⟨rfl, ⟨c, i, p, o, lb, r, rfl, hk⟩, hp⟩
    unfold renameAttribute
    rw [if_neg (by simp [hn]), renameFirst_skips _ _ _ _ hp, renameFirst, if_neg (by simpa using hk)]; rfl

/-- **C27 (value after rename).** After a successful rename the new name has the value of the old one. -/
theorem C27_rename_value (l l' : List Expr) (old new : Bytes) (h : renameAttribute old new l = some l')
    (hnew : ∀ x ∈ l, ¬ Defines new x) : attr new l' = attr old l ∧ ∀ k, k ≠ old → k ≠ new → attr k l' = attr k l := by
  rcases exists_first old l with hn | ⟨pre, d, post, hd⟩
  · rw [(C27_rename l old new).2.1 hn] at h; cases h
  · have hnil : (attr new l).isNil = true := by rw [(C27_get l new).2 hnew]; rfl
    rw [(C27_rename l old new).2.2 pre d post hnil hd] at h
    have h := Option.some.inj h
    subst h
    have hdef := hd.2.1
    constructor
    · rw [(C27_get l old).1 _ _ _ hd]
      rw [(C27_get _ new).1 pre (withName new d) post ⟨rfl, ?_, ?_⟩]
      · obtain ⟨c, i, p, o, lb, r, rfl, hk⟩ := hdef; rfl
      · obtain ⟨c, i, p, o, lb, r, rfl, hk⟩ := hdef; exact ⟨_, _, _, _, _, _, rfl, rfl⟩
      · intro x hx; exact hnew x (by rw [hd.1]; simp [hx])
    · intro k h1 h2
      rw [hd.1]
      apply attr_append
      rw [attr_skip, attr_skip]
      · exact fun hc => h1 (defines_unique hc hdef)
      · obtain ⟨c, i, p, o, lb, r, rfl, hk⟩ := hdef
        rintro ⟨_, _, _, _, _, _, e, hk'⟩
        simp only [withName, Expr.assign.injEq, Expr.ident.injEq] at e
        rw [← e.2.1] at hk'
        exact h2 hk'.symm

/-- **C27 (keys).** Setting an attribute adds its name at the end, if it was not there, and leaves the names otherwise. -/
theorem C27_keys (l : List Expr) (key : Bytes) (v : Expr) :
    (key ∈ attrKeys l ↔ ∃ x ∈ l, Defines key x) ∧
    attrKeys (setAttr key v l) = if key ∈ attrKeys l then attrKeys l else attrKeys l ++ [key] := by
  have app : ∀ a b, attrKeys (a ++ b) = attrKeys a ++ attrKeys b := by
    intro a b
    induction a with
    | nil => rfl
    | cons x a ih =>
      rw [List.cons_append]
      rw [attrKeys.eq_def]
      split
      · cases ‹_ :: _ = []›
      · rename_i e; cases e; rw [ih, attrKeys]; rfl
      · rename_i hx e; cases e
        rw [ih, attrKeys]
        exact hx
  have mem : key ∈ attrKeys l ↔ ∃ x ∈ l, Defines key x := by
    induction l with
    | nil => simp [attrKeys]
    | cons x l ih =>
      rw [attrKeys.eq_def]
      split
      · cases ‹_ :: _ = []›
      · rename_i e; cases e
        rw [List.mem_cons, ih]
        constructor
        · rintro (h | ⟨y, hy, h⟩)
          · exact ⟨_, List.mem_cons_self .., _, _, _, _, _, _, rfl, h.symm⟩
          · exact ⟨y, by simp [hy], h⟩
        · rintro ⟨y, hy, h⟩
          rcases List.mem_cons.mp hy with rfl | hy
          · obtain ⟨_, _, _, _, _, _, e, hk⟩ := h; cases e; exact .inl hk.symm
          · exact .inr ⟨y, hy, h⟩
      · rename_i hx e; cases e
        rw [ih]
        constructor
        · rintro ⟨y, hy, h⟩; exact ⟨y, by simp [hy], h⟩
        · rintro ⟨y, hy, h⟩
          rcases List.mem_cons.mp hy with rfl | hy
          · obtain ⟨_, _, _, _, _, _, e, hk⟩ := h; exact absurd e (hx _ _ _ _ _ _)
          · exact ⟨y, hy, h⟩
  refine ⟨mem, ?_⟩
  rcases exists_first key l with h | ⟨pre, d, post, h⟩
  · rw [if_neg (fun hc => by obtain ⟨x, hx, hd⟩ := mem.mp hc; exact h x hx hd), (C27_set l key v).2 h, app]; rfl
  · rw [if_pos (mem.mpr ⟨d, by rw [h.1]; simp, h.2.1⟩), (C27_set l key v).1 _ _ _ h, h.1, app, app]
    obtain ⟨c, i, p, o, lb, r, rfl, hk⟩ := h.2.1
    rfl

/-! a rule with a repeated attribute and a positional argument -/
def exArgs : List Expr :=
  [.string { value := b!"pos" }, .assign {} (.ident { name := b!"srcs" }) {} b!"=" false (.literal {} {} b!"1"),
   .assign {} (.ident { name := b!"deps" }) {} b!"=" false (.literal {} {} b!"2"),
   .assign {} (.ident { name := b!"srcs" }) {} b!"=" false (.literal {} {} b!"3")]
example : FirstDef exArgs b!"srcs" [.string { value := b!"pos" }] (.assign {} (.ident { name := b!"srcs" }) {} b!"=" false (.literal {} {} b!"1"))
    [.assign {} (.ident { name := b!"deps" }) {} b!"=" false (.literal {} {} b!"2"),
     .assign {} (.ident { name := b!"srcs" }) {} b!"=" false (.literal {} {} b!"3")] :=
  ⟨rfl, ⟨_, _, _, _, _, _, rfl, rfl⟩, by
    intro x hx; rw [List.mem_singleton.mp hx]; rintro ⟨_, _, _, _, _, _, e, _⟩; cases e⟩
example : attr b!"srcs" exArgs = .literal {} {} b!"1" := rfl

/-! ### Dictionaries -/

theorem exists_firstKey (key : Bytes) (l : List Expr) : (∀ x ∈ l, ¬ HasKey key x) ∨ ∃ pre d post, FirstKey l key pre d post := by
  induction l with
  | nil => exact .inl (by simp)
  | cons x l ih =>
    by_cases h : HasKey key x
    · exact .inr ⟨[], x, l, rfl, h, by simp⟩
    · rcases ih with ih | ⟨pre, d, post, e, hd, hp⟩
      · exact .inl (by intro y hy; rcases List.mem_cons.mp hy with rfl | hy; exact h; exact ih y hy)
      · refine .inr ⟨x :: pre, d, post, by rw [e]; rfl, hd, ?_⟩
        intro y hy; rcases List.mem_cons.mp hy with rfl | hy; exact h; exact hp y hy

theorem not_hasKey_ne {key : Bytes} {c : Comments} {k : StringN} {p : Pos} {v : Expr}
    (h : ¬ HasKey key (.keyValue c (.string k) p v)) : ¬ k.value = key := fun e => h ⟨c, k, p, v, rfl, e⟩

theorem dictGet_skip (key : Bytes) (x : Expr) (l : List Expr) (h : ¬ HasKey key x) : dictGet key (x :: l) = dictGet key l := by
  rw [dictGet.eq_def]
  split
  · cases ‹_ :: _ = []›
  · rename_i e; cases e; rw [if_neg (not_hasKey_ne h)]
  · rename_i e; cases e; rfl

theorem dictGet_skips (key : Bytes) (pre l : List Expr) (h : ∀ x ∈ pre, ¬ HasKey key x) :
    dictGet key (pre ++ l) = dictGet key l := by
  induction pre with
  | nil => rfl
  | cons x pre ih => rw [List.cons_append, dictGet_skip _ _ _ (h x (by simp)), ih (fun y hy => h y (by simp [hy]))]

/-- **C28 (get).** The value of the first entry with that string key. -/
theorem C28_get (l : List Expr) (key : Bytes) :
    (∀ pre d post, FirstKey l key pre d post → dictGet key l = entryValue d) ∧
    ((∀ x ∈ l, ¬ HasKey key x) → dictGet key l = .nil) := by
  constructor
  · rintro pre d post ⟨rfl, ⟨c, i, p, v, rfl, hk⟩, hp⟩
    rw [dictGet_skips _ _ _ hp, dictGet, if_pos hk]; rfl
  · intro h
    have := dictGet_skips key l [] h
    rw [List.append_nil] at this
    exact this

theorem dictSetFirst_skip (key : Bytes) (v x : Expr) (l : List Expr) (h : ¬ HasKey key x) :
    dictSetFirst key v (x :: l) = (dictSetFirst key v l).map (x :: ·) := by
  rw [dictSetFirst.eq_def]
  split
  · cases ‹_ :: _ = []›
  · rename_i e; cases e; rw [if_neg (not_hasKey_ne h)]
  · rename_i e; cases e; rfl

theorem dictSetFirst_skips (key : Bytes) (v : Expr) (pre l : List Expr) (h : ∀ x ∈ pre, ¬ HasKey key x) :
    dictSetFirst key v (pre ++ l) = (dictSetFirst key v l).map (pre ++ ·) := by
  induction pre with
  | nil => simp
  | cons x pre ih =>
    rw [List.cons_append, dictSetFirst_skip _ _ _ _ (h x (by simp)), ih (fun y hy => h y (by simp [hy])), Option.map_map]
    rfl

/-- **C28 (set).** Setting a key replaces the value of its first entry in place, and returns the new value; a new key is
appended, and nothing is returned. Setting nothing changes nothing. -/
theorem C28_set (l : List Expr) (key : Bytes) (v : Expr) :
    (∀ pre d post, v.isNil = false → FirstKey l key pre d post →
      dictSet key v l = (pre ++ withEntryValue v d :: post, v)) ∧
    ((∀ x ∈ l, ¬ HasKey key x) → v.isNil = false →
      dictSet key v l = (l ++ [.keyValue {} (.string { value := key }) {} v], .nil)) ∧
    dictSet key .nil l = (l, dictGet key l) := by
  refine ⟨?_, ?_, ?_⟩
  · rintro pre d post hv ⟨rfl, ⟨c, i, p, w, rfl, hk⟩, hp⟩
    unfold dictSet
    rw [dictSetFirst_skips _ _ _ _ hp, dictSetFirst, if_pos hk]
    simp only [Option.map_some, hv, Bool.false_eq_true, if_false]
    rw [dictGet_skips _ _ _ hp, dictGet, if_pos hk]; rfl
  · intro h hv
    unfold dictSet
    have := dictSetFirst_skips key v l [] h
    rw [List.append_nil] at this
    rw [this]; simp [dictSetFirst, hv]
  · rcases exists_firstKey key l with h | ⟨pre, d, post, rfl, ⟨c, i, p, w, rfl, hk⟩, hp⟩
    · unfold dictSet
      have := dictSetFirst_skips key .nil l [] h
      rw [List.append_nil] at this
      rw [this, (C28_get l key).2 h]; simp [dictSetFirst, Expr.isNil]
    · unfold dictSet
      rw [dictSetFirst_skips _ _ _ _ hp, dictSetFirst, if_pos hk]
      simp only [Option.map_some, Expr.isNil, if_true]

theorem dictGet_append (key : Bytes) (a b b' : List Expr) (h : dictGet key b = dictGet key b') :
    dictGet key (a ++ b) = dictGet key (a ++ b') := by
  induction a with
  | nil => exact h
  | cons x a ih =>
    by_cases hx : HasKey key x
    · obtain ⟨c, i, p, v, rfl, hk⟩ := hx
      rw [List.cons_append, List.cons_append, dictGet, dictGet, if_pos hk, if_pos hk]
    · rw [List.cons_append, List.cons_append, dictGet_skip _ _ _ hx, dictGet_skip _ _ _ hx, ih]

theorem hasKey_unique {k k' : Bytes} {d : Expr} (h : HasKey k d) (h' : HasKey k' d) : k = k' := by
  obtain ⟨c, i, p, r, rfl, hk⟩ := h
  obtain ⟨_, _, _, _, e, hk'⟩ := h'
  cases e; rw [← hk, ← hk']

theorem hasKey_withEntryValue (v : Expr) {key key' : Bytes} {d : Expr} (h : HasKey key d) :
    HasKey key' (withEntryValue v d) ↔ HasKey key' d := by
  obtain ⟨c, i, p, r, rfl, _⟩ := h
  constructor
  · rintro ⟨_, _, _, _, e, hk⟩; cases e; exact ⟨_, _, _, _, rfl, hk⟩
  · rintro ⟨_, _, _, _, e, hk⟩; cases e; exact ⟨_, _, _, _, rfl, hk⟩

/-- **C28 (map laws).** What was set is read back, and other keys are not affected. -/
theorem C28_get_set (l : List Expr) (key : Bytes) (v : Expr) (hv : v.isNil = false) :
    dictGet key (dictSet key v l).1 = v ∧ ∀ key', key' ≠ key → dictGet key' (dictSet key v l).1 = dictGet key' l := by
  rcases exists_firstKey key l with h | ⟨pre, d, post, h⟩
  · rw [(C28_set l key v).2.1 h hv]
    constructor
    · rw [dictGet_skips _ _ _ h, dictGet, if_pos rfl]
    · intro key' hne
      have e : dictGet key' [Expr.keyValue {} (.string { value := key }) {} v] = dictGet key' [] := by
        exact dictGet_skip key' _ [] (by rintro ⟨_, _, _, _, e, hk⟩; cases e; exact hne hk.symm)
      simpa using dictGet_append key' l _ _ e
  · rw [(C28_set l key v).1 _ _ _ hv h]
    constructor
    · rw [(C28_get _ key).1 pre (withEntryValue v d) post ⟨rfl, (hasKey_withEntryValue v h.2.1).mpr h.2.1, h.2.2⟩]
      obtain ⟨c, i, p, w, rfl, _⟩ := h.2.1; rfl
    · intro key' hne
      rw [h.1]
      apply dictGet_append
      rw [dictGet_skip, dictGet_skip]
      · exact fun hc => hne (hasKey_unique hc h.2.1)
      · exact fun hc => hne (hasKey_unique ((hasKey_withEntryValue v h.2.1).mp hc) h.2.1)

/-- the key an entry is deleted by: quotes around the argument are removed -/
def DeleteKey (arg key : Bytes) : Prop :=
  ((Quote.unquote arg).err = false → key = (Quote.unquote arg).s) ∧ ((Quote.unquote arg).err = true → key = arg)

/-- an entry whose key is a string literal -/
def StringKey (a : Expr) : Prop := ∃ k, HasKey k a

open Classical in
theorem dictDelLoop_eq (key : Bytes) (l : List Expr) : ∀ acc, dictDelLoop key l acc =
    (acc.1 ++ l.filter (fun x => decide (StringKey x ∧ ¬ HasKey key x)),
      (l.filter (fun x => decide (HasKey key x))).getLast?.getD acc.2) := by
  induction l with
  | nil => intro acc; simp [dictDelLoop]
  | cons x l ih =>
    intro acc
    rw [dictDelLoop.eq_def]
    split
    · cases ‹_ :: _ = []›
    · rename_i e; cases e
      rename_i c k p v
      split
      · rename_i hk
        have hx : HasKey key (.keyValue c (.string k) p v) := ⟨_, _, _, _, rfl, hk⟩
        rw [ih, List.filter_cons_of_neg (by simp [hx]), List.filter_cons_of_pos (by simp [hx])]
        congr 1
        rw [List.getLast?_cons]; rfl
      · rename_i hk
        have hx : ¬ HasKey key (.keyValue c (.string k) p v) := by rintro ⟨_, _, _, _, e, h⟩; cases e; exact hk h
        have hs : StringKey (.keyValue c (.string k) p v) := ⟨_, _, _, _, _, rfl, rfl⟩
        rw [ih, List.filter_cons_of_pos (by simp [hx, hs]), List.filter_cons_of_neg (by simp [hx])]
        simp
    · rename_i hx e; cases e
      have h1 : ¬ StringKey x := by rintro ⟨_, _, _, _, _, e, _⟩; exact hx _ _ _ _ e
      have h2 : ¬ HasKey key x := fun h => h1 ⟨_, h⟩
      rw [ih, List.filter_cons_of_neg (by simp [h1]), List.filter_cons_of_neg (by simp [h2])]

open Classical in
/-- **C28 (delete).** Deleting keeps, in order, exactly the entries that have a string literal as key, a different one, and
returns the last entry with the key. -/
theorem C28_delete (l : List Expr) (arg key : Bytes) (hk : DeleteKey arg key) :
    (dictDelete arg l).1 = l.filter (fun x => decide (StringKey x ∧ ¬ HasKey key x)) ∧
    (dictDelete arg l).2 = (l.filter (fun x => decide (HasKey key x))).getLast?.getD .nil := by
  have e : (if (Quote.unquote arg).err = false then (Quote.unquote arg).s else arg) = key := by
    cases h : (Quote.unquote arg).err with
    | false => rw [if_pos rfl]; exact (hk.1 h).symm
    | true => rw [if_neg (by simp)]; exact (hk.2 h).symm
  unfold dictDelete
  dsimp only
  rw [e, dictDelLoop_eq]
  simp

/-- **C28 (map laws for delete).** The key is gone, all other keys keep their values. -/
theorem C28_get_delete (l : List Expr) (arg key : Bytes) (hk : DeleteKey arg key) :
    dictGet key (dictDelete arg l).1 = .nil ∧ ∀ key', key' ≠ key → dictGet key' (dictDelete arg l).1 = dictGet key' l := by
  rw [(C28_delete l arg key hk).1]
  constructor
  · refine (C28_get _ key).2 ?_
    intro x hx
    have := (List.mem_filter.mp hx).2
    simp at this
    exact this.2
  · intro key' hne
    induction l with
    | nil => rfl
    | cons x l ih =>
      by_cases h' : HasKey key' x
      · have : ¬ HasKey key x := fun h => hne (hasKey_unique h' h)
        rw [List.filter_cons_of_pos (by simp [this]; exact ⟨_, h'⟩)]
        obtain ⟨c, k, p, v, rfl, e⟩ := h'
        rw [dictGet, dictGet, if_pos e, if_pos e]
      · rw [dictGet_skip _ _ _ h', ← ih]
        rw [List.filter_cons]
        split
        · rw [dictGet_skip _ _ _ h']
        · rfl

/-- **C28 (finding).** An entry whose key is not a string literal is lost whatever key is deleted. -/
theorem C28_delete_loses_nonstring :
    (dictDelete b!"absent" [.keyValue {} (.ident { name := b!"VAR" }) {} (.literal {} {} b!"1")]).1 = [] := rfl

example : DeleteKey b!"\"a\"" b!"a" := ⟨fun _ => rfl, fun h => absurd h (by decide)⟩
example : DeleteKey b!"absent" b!"absent" := ⟨fun h => absurd h (by decide), fun _ => rfl⟩

end Verif.Props.Attr
