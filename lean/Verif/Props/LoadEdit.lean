import Verif.Model.LoadEdit
import Verif.Proofs.SortStrings
/-
C34: inserting load statements.
-/
namespace Verif.Props.LoadEdit
open Verif Verif.Syntax Verif.Walk Verif.Rewrite Verif.Edit

/-! ### Specification -/

/-- the symbols a statement loads: module, original name, local name -/
def bindings1 : Expr → List (Bytes × Bytes × Bytes)
  | .load _ _ m f t _ _ => (f.zip t).map fun p => (m.value, p.1.name, p.2.name)
  | _ => []

/-- the symbols loaded by a list of statements -/
def bindings (l : List Expr) : List (Bytes × Bytes × Bytes) := l.flatMap bindings1

/-- the statement is a load of the module -/
inductive LoadOf (loc : Bytes) : Expr → Prop
  | mk (c p m f t r fc) : m.value = loc → LoadOf loc (.load c p m f t r fc)

/-- the local names a load statement of the module defines -/
def localsOf (loc : Bytes) (stmts : List Expr) : List Bytes :=
  ((bindings stmts).filter fun b => b.1 = loc).map fun b => b.2.2

/-- every load has as many local as original names (the parser only builds such loads) -/
def WF (l : List Expr) : Prop := ∀ c p m f t r fc, Expr.load c p m f t r fc ∈ l → f.length = t.length

/-- the request: local name `t` for the original name `f`. If the caller names `t` twice the last request counts. -/
def Requested (from_ to_ : List Bytes) (t f : Bytes) : Prop :=
  ∃ a b, to_.zip from_ = a ++ (t, f) :: b ∧ ∀ q ∈ b, q.1 ≠ t

/-- statements a new load may not precede: comments, `workspace()`, and a docstring (a string in first position) -/
inductive Header (i : Nat) : Expr → Prop
  | comment (c p) : Header i (.commentBlock c p)
  | docstring (s) : i = 0 → Header i (.string s)
  | workspace (c ci pi p l e a b) : Header i (.call c (.ident ⟨ci, pi, b!"workspace"⟩) p l e a b)

/-- Go may iterate over a map in any order -/
def AnyOrder (ord : SymMap → SymMap) : Prop := ∀ l, (ord l).Perm l

/-! ### Proofs -/

theorem symSet_mem (m : SymMap) (t f : Bytes) (q : Bytes × Bytes) :
    q ∈ symSet m t f ↔ q = (t, f) ∨ (q ∈ m ∧ q.1 ≠ t) := by
  simp [symSet, and_comm, or_comm]

theorem symFold_mem (ps : List (Bytes × Bytes)) : ∀ (m : SymMap) (t f : Bytes),
    (t, f) ∈ ps.foldl (fun m p => symSet m p.1 p.2) m ↔
      (∃ a b, ps = a ++ (t, f) :: b ∧ ∀ q ∈ b, q.1 ≠ t) ∨ ((t, f) ∈ m ∧ ∀ q ∈ ps, q.1 ≠ t) := by
  induction ps with
  | nil => intro m t f; simp
  | cons p ps ih =>
    intro m t f
    rw [List.foldl_cons, ih, symSet_mem]
    constructor
    · rintro (⟨a, b, rfl, h⟩ | ⟨h, h'⟩)
      · exact .inl ⟨p :: a, b, rfl, h⟩
      · rcases h with h | ⟨h1, h2⟩
        · exact .inl ⟨[], ps, by rw [h]; rfl, h'⟩
        · refine .inr ⟨h1, ?_⟩
          intro q hq
          rcases List.mem_cons.mp hq with rfl | hq
          · exact Ne.symm h2
          · exact h' q hq
    · rintro (⟨a, b, he, h⟩ | ⟨h1, h2⟩)
      · cases a with
        | nil =>
          simp only [List.nil_append, List.cons.injEq] at he
          obtain ⟨rfl, rfl⟩ := he
          exact .inr ⟨.inl rfl, h⟩
        | cons x a =>
          simp only [List.cons_append, List.cons.injEq] at he
          exact .inl ⟨a, b, he.2, h⟩
      · exact .inr ⟨.inr ⟨h1, fun h => h2 p (by simp) h.symm⟩, fun q hq => h2 q (by simp [hq])⟩

theorem symMap_mem (from_ to_ : List Bytes) (t f : Bytes) : (t, f) ∈ symMap from_ to_ ↔ Requested from_ to_ t f := by
  unfold symMap Requested
  rw [symFold_mem]
  simp

theorem symSet_nodup (m : SymMap) (t f : Bytes) (h : (m.map (·.1)).Nodup) : ((symSet m t f).map (·.1)).Nodup := by
  simp only [symSet, List.map_append, List.map_cons, List.map_nil]
  rw [List.nodup_append]
  refine ⟨(h.sublist (List.Sublist.map _ List.filter_sublist)), by simp, ?_⟩
  intro a ha b hb
  simp only [List.mem_cons, List.not_mem_nil, or_false] at hb
  subst hb
  obtain ⟨q, hq, rfl⟩ := List.mem_map.mp ha
  simpa using (List.mem_filter.mp hq).2

theorem symFold_nodup (ps : List (Bytes × Bytes)) : ∀ (m : SymMap), (m.map (·.1)).Nodup →
    ((ps.foldl (fun m p => symSet m p.1 p.2) m).map (·.1)).Nodup := by
  induction ps with
  | nil => intro m h; exact h
  | cons p ps ih => intro m h; exact ih _ (symSet_nodup m _ _ h)

theorem symMap_nodup (from_ to_ : List Bytes) : ((symMap from_ to_).map (·.1)).Nodup :=
  symFold_nodup _ [] (by simp)

theorem symFold_append (ps : List (Bytes × Bytes)) : ∀ (m : SymMap), ((m ++ ps).map (·.1)).Nodup →
    ps.foldl (fun m p => symSet m p.1 p.2) m = m ++ ps := by
  induction ps with
  | nil => intro m _; simp
  | cons p ps ih =>
    intro m h
    have h1 : symSet m p.1 p.2 = m ++ [p] := by
      unfold symSet
      congr 1
      rw [List.filter_eq_self]
      intro a ha
      simp only [List.map_append, List.map_cons, List.nodup_append] at h
      simpa using h.2.2 a.1 (List.mem_map_of_mem ha) p.1 (by simp)
    rw [List.foldl_cons, h1, ih _ (by simpa using h)]
    simp

theorem zip_fst_snd (l : List (Bytes × Bytes)) : (l.map (·.1)).zip (l.map (·.2)) = l := by
  induction l with
  | nil => rfl
  | cons p l ih => simp [ih]

theorem symMap_self (l : SymMap) (h : (l.map (·.1)).Nodup) : symMap (l.map (·.2)) (l.map (·.1)) = l := by
  unfold symMap
  rw [zip_fst_snd, symFold_append _ [] (by simpa using h)]
  simp

theorem symDelete_eq (to_ : List IdentN) : ∀ (m : SymMap),
    symDelete m to_ = m.filter fun p => to_.all fun t => p.1 ≠ t.name := by
  induction to_ with
  | nil => intro m; exact (List.filter_eq_self.mpr fun _ _ => rfl).symm
  | cons t to_ ih =>
    intro m
    have : symDelete m (t :: to_) = symDelete (m.filter fun p => p.1 ≠ t.name) to_ := rfl
    rw [this, ih, List.filter_filter]
    congr 1
    funext p
    simp [Bool.and_comm]

theorem foldDelete_eq (ls : List Expr) : ∀ (m : SymMap),
    ls.foldl (fun m e => symDelete m (loadTo e)) m = m.filter fun p => ls.all fun e => (loadTo e).all fun t => p.1 ≠ t.name := by
  induction ls with
  | nil => intro m; exact (List.filter_eq_self.mpr fun _ _ => rfl).symm
  | cons e ls ih =>
    intro m
    rw [List.foldl_cons, ih, symDelete_eq, List.filter_filter]
    congr 1
    funext p
    simp [Bool.and_comm]

theorem loadsFrom_iff (loc : Bytes) (e : Expr) : loadsFrom loc e = true ↔ LoadOf loc e := by
  cases e
  case load c p m f t r fc =>
    simp only [loadsFrom, loadModule, beq_iff_eq, Option.some.injEq]
    exact ⟨fun h => ⟨_, _, _, _, _, _, _, h⟩, fun h => by cases h; assumption⟩
  all_goals exact ⟨fun h => by simp [loadsFrom, loadModule] at h, fun h => nomatch h⟩

theorem localsOf_mem (loc : Bytes) (stmts : List Expr) (t : Bytes) :
    t ∈ localsOf loc stmts ↔ ∃ f, (loc, f, t) ∈ bindings stmts := by
  simp only [localsOf, List.mem_map, List.mem_filter, decide_eq_true_eq]
  constructor
  · rintro ⟨⟨a, f, t'⟩, ⟨h1, rfl⟩, rfl⟩; exact ⟨f, h1⟩
  · rintro ⟨f, h⟩; exact ⟨_, ⟨h, rfl⟩, rfl⟩

theorem zip_names (f t : List IdentN) (h : f.length = t.length) (x : IdentN) (hx : x ∈ t) : ∃ y, (y, x) ∈ f.zip t := by
  induction t generalizing f with
  | nil => cases hx
  | cons a t ih =>
    cases f with
    | nil => simp at h
    | cons b f =>
      rcases List.mem_cons.mp hx with rfl | hx
      · exact ⟨b, by simp⟩
      · obtain ⟨y, hy⟩ := ih f (by simpa using h) hx
        exact ⟨y, by simp [hy]⟩

/-- the symbols still to load: those requested that no load of the module has -/
theorem new_mem {stmts : List Expr} (hwf : WF stmts) (loc : Bytes) (from_ to_ : List Bytes) (t f : Bytes) :
    (t, f) ∈ (stmts.filter (loadsFrom loc)).foldl (fun m e => symDelete m (loadTo e)) (symMap from_ to_) ↔
      Requested from_ to_ t f ∧ t ∉ localsOf loc stmts := by
  rw [foldDelete_eq, List.mem_filter, symMap_mem]
  refine and_congr_right fun _ => ?_
  rw [localsOf_mem]
  simp only [List.all_eq_true, List.mem_filter, decide_eq_true_eq, ne_eq, and_imp]
  constructor
  · rintro h ⟨f', hf⟩
    obtain ⟨e, he, hb⟩ := List.mem_flatMap.mp hf
    cases e <;> simp only [bindings1, List.not_mem_nil] at hb
    case load c p m ff tt r fc =>
      obtain ⟨q, hq, heq⟩ := List.mem_map.mp hb
      simp only [Prod.mk.injEq] at heq
      exact h _ he ((loadsFrom_iff loc _).mpr ⟨_, _, _, _, _, _, _, heq.1⟩) q.2 (List.of_mem_zip hq).2 heq.2.2.symm
  · intro h e he hl x hx heq
    have := (loadsFrom_iff loc e).mp hl
    cases this with
    | mk c p m ff tt r fc hm =>
      obtain ⟨y, hy⟩ := zip_names ff tt (hwf _ _ _ _ _ _ _ he) x hx
      exact h ⟨y.name, List.mem_flatMap.mpr ⟨_, he, List.mem_map.mpr ⟨_, hy, by simp [hm, heq]⟩⟩⟩

theorem new_nodup (ls : List Expr) (from_ to_ : List Bytes) :
    ((ls.foldl (fun m e => symDelete m (loadTo e)) (symMap from_ to_)).map (·.1)).Nodup := by
  rw [foldDelete_eq]
  exact (symMap_nodup from_ to_).sublist (List.Sublist.map _ List.filter_sublist)

theorem modify_split {α} (a : List α) (x : α) (b : List α) (f : α → α) :
    (a ++ x :: b).modify a.length f = a ++ f x :: b := by
  induction a with
  | nil => rfl
  | cons y a ih => simp [List.modify_succ_cons, ih]

/-- splitting at the last element with a property -/
theorem last_split {α} (p : α → Bool) (l : List α) :
    (l.reverse.findIdx? p = none ∧ ∀ x ∈ l, p x = false) ∨
    ∃ a x b, l = a ++ x :: b ∧ p x = true ∧ (∀ y ∈ b, p y = false) ∧ l.reverse.findIdx? p = some b.length := by
  cases h : l.reverse.findIdx? p with
  | none =>
    rw [List.findIdx?_eq_none_iff] at h
    exact .inl ⟨rfl, fun x hx => by simpa using h x (by simpa using hx)⟩
  | some k =>
    right
    rw [List.findIdx?_eq_some_iff_getElem] at h
    obtain ⟨hk, h1, h2⟩ := h
    have hk' : k < l.length := by simpa using hk
    have e1 : l.reverse[k] = l[l.length - 1 - k] := by rw [List.getElem_reverse]
    have hsplit : l = l.take (l.length - 1 - k) ++ l[l.length - 1 - k] :: l.drop (l.length - 1 - k + 1) := by
      rw [List.getElem_cons_drop, List.take_append_drop]
    refine ⟨_, _, _, hsplit, by rw [← e1]; exact h1, ?_, ?_⟩
    · intro y hy
      obtain ⟨i, hi, rfl⟩ := List.mem_iff_getElem.mp hy
      simp only [List.length_drop] at hi
      rw [List.getElem_drop]
      have := h2 (k - 1 - i) (by omega)
      rw [List.getElem_reverse] at this
      have e : l.length - 1 - (k - 1 - i) = l.length - 1 - k + 1 + i := by omega
      rw [Bool.not_eq_true] at this
      simpa [e] using this
    · simp only [List.length_drop]
      congr 1
      omega

/-- **C34 (exactness, existing load).** When there is a load of the module, exactly its last load changes: the symbols that no load
of the module defines are appended to it, each once, whatever order Go iterates over its maps. -/
theorem C34_append (ord1 ord2 : SymMap → SymMap) (h1 : AnyOrder ord1) (h2 : AnyOrder ord2) (stmts : List Expr) (hwf : WF stmts)
    (loc : Bytes) (from_ to_ : List Bytes) (hlen : from_.length = to_.length) (hex : ∃ e ∈ stmts, LoadOf loc e) :
    ∃ a b c p m f t r fc, ∃ new : List (Bytes × Bytes),
      stmts = a ++ .load c p m f t r fc :: b ∧ m.value = loc ∧ (∀ e ∈ b, ¬ LoadOf loc e) ∧
      insertLoad ord1 ord2 stmts loc from_ to_ =
        some (a ++ .load c p m (f ++ new.map fun q => { name := q.2 }) (t ++ new.map fun q => { name := q.1 }) r fc :: b) ∧
      (new.map (·.1)).Nodup ∧ ∀ t f, (t, f) ∈ new ↔ Requested from_ to_ t f ∧ t ∉ localsOf loc stmts := by
  rcases last_split (loadsFrom loc) stmts with ⟨_, h⟩ | ⟨a, x, b, hs, hx, hb, hidx⟩
  · obtain ⟨e, he, hl⟩ := hex
    rw [← loadsFrom_iff, h e he] at hl
    cases hl
  · cases (loadsFrom_iff loc x).mp hx with
    | mk c p m f t r fc hm =>
      have key : ∀ NEW, NEW = (stmts.filter (loadsFrom loc)).foldl (fun m e => symDelete m (loadTo e)) (symMap from_ to_) →
          (appendToLoad ord2 ((ord1 NEW).map (·.2)) ((ord1 NEW).map (·.1)) (.load c p m f t r fc)).1 =
            .load c p m (f ++ (ord2 (ord1 NEW)).map fun q => { name := q.2 }) (t ++ (ord2 (ord1 NEW)).map fun q => { name := q.1 }) r fc := by
        intro NEW hNEW
        have nd : ((ord1 NEW).map (·.1)).Nodup := by
          rw [((h1 NEW).map _).nodup_iff, hNEW]; exact new_nodup _ _ _
        have hdel : symDelete (ord1 NEW) t = ord1 NEW := by
          rw [symDelete_eq, List.filter_eq_self]
          intro q hq
          have hq' : q ∈ NEW := (h1 NEW).mem_iff.mp hq
          rw [hNEW, foldDelete_eq, List.mem_filter] at hq'
          have := List.all_eq_true.mp hq'.2 (.load c p m f t r fc) (by
            rw [List.mem_filter]; exact ⟨by rw [hs]; simp, (loadsFrom_iff loc _).mpr ⟨_, _, _, _, _, _, _, hm⟩⟩)
          exact this
        simp only [appendToLoad, symMap_self _ nd, hdel]
        split
        · rename_i hemp
          have : ord2 (ord1 NEW) = [] := by
            have h0 : ord1 NEW = [] := List.isEmpty_iff.mp hemp
            rw [h0]
            exact (h2 []).eq_nil
          simp [this]
        · rfl
      refine ⟨a, b, c, p, m, f, t, r, fc,
        ord2 (ord1 ((stmts.filter (loadsFrom loc)).foldl (fun m e => symDelete m (loadTo e)) (symMap from_ to_))),
        hs, hm, ?_, ?_, ?_, ?_⟩
      · intro e he hl
        rw [← loadsFrom_iff, hb e he] at hl
        cases hl
      · unfold insertLoad appendLoad
        rw [if_neg (by simpa using hlen)]
        simp only [hidx]
        congr 1
        have hl : stmts.length - 1 - b.length = a.length := by rw [hs]; simp
        rw [hl]
        conv => lhs; arg 1; rw [hs]
        rw [modify_split, ← key _ rfl]
      · rw [(((h2 _).trans (h1 _)).map _).nodup_iff]; exact new_nodup _ _ _
      · intro t' f'
        rw [((h2 _).trans (h1 _)).mem_iff]
        exact new_mem hwf loc from_ to_ t' f'

theorem header_iff (i : Nat) (e : Expr) :
    (∃ l, loadPlace (decide (i = 0)) (e :: l) ≠ 0) ↔ Header i e := by
  constructor
  · rintro ⟨l, h⟩
    cases e
    case commentBlock c p => exact .comment _ _
    case string s =>
      simp only [loadPlace] at h
      split at h
      · rename_i h0; exact .docstring _ (by simpa using h0)
      · exact absurd rfl h
    case call c x p l e a b =>
      simp only [loadPlace] at h
      split at h
      · rename_i h0
        cases x <;> simp only [isFunctionCall, Bool.false_eq_true, beq_iff_eq] at h0
        rename_i n
        cases n
        subst h0
        exact .workspace ..
      · exact absurd rfl h
    all_goals exact absurd rfl h
  · intro h
    refine ⟨[], ?_⟩
    cases h with
    | comment => simp [loadPlace]
    | docstring _ h => simp [loadPlace, h]
    | workspace => simp [loadPlace, isFunctionCall]

theorem place_cons (first : Bool) (e : Expr) (l : List Expr) :
    loadPlace first (e :: l) = 0 ∨ (∀ l', loadPlace first (e :: l') = 1 + loadPlace false l') := by
  cases e
  case string => cases first <;> simp [loadPlace]
  case call c x p ll e a b =>
    simp only [loadPlace]
    cases isFunctionCall (.call c x p ll e a b) b!"workspace" <;> simp
  all_goals simp [loadPlace, isFunctionCall]

theorem place_spec (l : List Expr) : ∀ (i : Nat), loadPlace (decide (i = 0)) l ≤ l.length ∧
    (∀ j, j < loadPlace (decide (i = 0)) l → ∀ e, l[j]? = some e → Header (i + j) e) ∧
    (∀ e, l[loadPlace (decide (i = 0)) l]? = some e → ¬ Header (i + loadPlace (decide (i = 0)) l) e) := by
  induction l with
  | nil => intro i; simp [loadPlace]
  | cons x l ih =>
    intro i
    rcases place_cons (decide (i = 0)) x l with h | h
    · rw [h]
      refine ⟨by simp, by omega, ?_⟩
      intro e he hh
      simp only [List.getElem?_cons_zero, Option.some.injEq] at he
      subst he
      obtain ⟨l', hl'⟩ := (header_iff i x).mpr (by simpa using hh)
      rcases place_cons (decide (i = 0)) x l' with h' | h'
      · exact hl' h'
      · rw [h' l] at h; omega
    · have e0 : (false : Bool) = decide (i + 1 = 0) := by simp
      have hx : Header i x := (header_iff i x).mp ⟨l, by rw [h l]; omega⟩
      obtain ⟨a, b, c⟩ := ih (i + 1)
      rw [← e0] at a b c
      rw [h l]
      refine ⟨by simp; omega, ?_, ?_⟩
      · intro j hj e he
        cases j with
        | zero =>
          simp only [List.getElem?_cons_zero, Option.some.injEq] at he
          subst he; exact hx
        | succ j =>
          have := b j (by omega) e (by simpa using he)
          rwa [Nat.add_right_comm, Nat.add_assoc] at this
      · intro e he
        rw [Nat.add_comm 1, List.getElem?_cons_succ] at he
        have := c e he
        rwa [Nat.add_assoc, ] at this

/-- **C34 (exactness, new load).** When there is no load of the module, exactly one statement is inserted: a load of the requested
symbols, directly after the comments, docstring and `workspace()` calls the file starts with. -/
theorem C34_new (ord1 ord2 : SymMap → SymMap) (stmts : List Expr)
    (loc : Bytes) (from_ to_ : List Bytes) (hlen : from_.length = to_.length) (hex : ∀ e ∈ stmts, ¬ LoadOf loc e) :
    ∃ k e, k ≤ stmts.length ∧ insertLoad ord1 ord2 stmts loc from_ to_ = some (stmts.take k ++ e :: stmts.drop k) ∧
      LoadOf loc e ∧ bindings1 e = (from_.zip to_).map (fun q => (loc, q.1, q.2)) ∧
      (∀ i < k, ∀ e, stmts[i]? = some e → Header i e) ∧ (∀ e, stmts[k]? = some e → ¬ Header k e) := by
  obtain ⟨a, b, c⟩ := place_spec stmts 0
  simp only [decide_true, Nat.zero_add] at a b c
  refine ⟨loadPlace true stmts, newLoad loc from_ to_, a, ?_, ⟨_, _, _, _, _, _, _, rfl⟩, ?_, b, c⟩
  · unfold insertLoad appendLoad
    rw [if_neg (by simpa using hlen)]
    have : stmts.reverse.findIdx? (loadsFrom loc) = none := by
      rw [List.findIdx?_eq_none_iff]
      intro x hx
      have := hex x (by simpa using hx)
      rw [← loadsFrom_iff] at this
      simpa using this
    simp only [this]
    simp
  · simp only [newLoad, bindings1]
    rw [List.zip_map, List.map_map]
    rfl

/-- Lengths that differ make the function panic. -/
theorem C34_panic (ord1 ord2 : SymMap → SymMap) (stmts : List Expr) (loc : Bytes) (from_ to_ : List Bytes) :
    insertLoad ord1 ord2 stmts loc from_ to_ = none ↔ from_.length ≠ to_.length := by
  unfold insertLoad
  split
  · simp [*]
  · constructor
    · intro h; split at h <;> cases h
    · intro h; contradiction

theorem bindings_append (a b : List Expr) : bindings (a ++ b) = bindings a ++ bindings b := by
  simp [bindings]

theorem bindings_extended (c p) (m : StringN) (f t r fc) (new : SymMap) (h : f.length = t.length) :
    bindings1 (.load c p m (f ++ new.map fun q => { name := q.2 }) (t ++ new.map fun q => { name := q.1 }) r fc) =
      bindings1 (.load c p m f t r fc) ++ new.map fun q => (m.value, q.2, q.1) := by
  simp only [bindings1]
  rw [List.zip_append h, List.map_append]
  congr 1
  induction new with
  | nil => rfl
  | cons q l ih => simp [ih]

theorem requested_of_mem (from_ to_ : List Bytes) (hlen : from_.length = to_.length) (t : Bytes) (ht : t ∈ to_) :
    ∃ f, Requested from_ to_ t f := by
  have : ∀ (ps : List (Bytes × Bytes)), t ∈ ps.map (·.1) → ∃ f a b, ps = a ++ (t, f) :: b ∧ ∀ q ∈ b, q.1 ≠ t := by
    intro ps
    induction ps with
    | nil => intro h; cases h
    | cons p ps ih =>
      intro h
      by_cases hm : t ∈ ps.map (·.1)
      · obtain ⟨f, a, b, rfl, hb⟩ := ih hm
        exact ⟨f, p :: a, b, rfl, hb⟩
      · rw [List.map_cons] at h
        rcases List.mem_cons.mp h with h | h
        · refine ⟨p.2, [], ps, by rw [h]; rfl, ?_⟩
          intro q hq he
          exact hm (List.mem_map.mpr ⟨q, hq, he⟩)
        · exact absurd h hm
  refine this (to_.zip from_) ?_
  rw [List.map_fst_zip (by omega)]
  exact ht

/-- **C34 (availability).** Afterwards every requested symbol is defined by a load of the module; nothing that was loaded before is
lost; and nothing else is loaded. -/
theorem C34_available (ord1 ord2 : SymMap → SymMap) (h1 : AnyOrder ord1) (h2 : AnyOrder ord2) (stmts : List Expr) (hwf : WF stmts)
    (loc : Bytes) (from_ to_ : List Bytes) (r : List Expr) (hr : insertLoad ord1 ord2 stmts loc from_ to_ = some r) :
    (∀ t ∈ to_, t ∈ localsOf loc r) ∧ (∀ b ∈ bindings stmts, b ∈ bindings r) ∧
    (∀ b ∈ bindings r, b ∈ bindings stmts ∨ (b.1 = loc ∧ (b.2.1, b.2.2) ∈ from_.zip to_ ∧ b.2.2 ∉ localsOf loc stmts)) ∧ WF r := by
  have hlen : from_.length = to_.length := by
    by_cases h : from_.length = to_.length
    · exact h
    · rw [(C34_panic ord1 ord2 stmts loc from_ to_).mpr h] at hr; cases hr
  by_cases hex : ∃ e ∈ stmts, LoadOf loc e
  · obtain ⟨a, b, c, p, m, f, t, rp, fc, new, hs, hm, hb, hres, hnd, hnew⟩ := C34_append ord1 ord2 h1 h2 stmts hwf loc from_ to_ hlen hex
    rw [hres] at hr
    cases hr
    have hft : f.length = t.length := hwf c p m f t rp fc (by rw [hs]; simp)
    have hB : ∀ x, x ∈ bindings (a ++ .load c p m (f ++ new.map fun q => { name := q.2 }) (t ++ new.map fun q => { name := q.1 }) rp fc :: b)
        ↔ x ∈ bindings stmts ∨ x ∈ new.map fun q => (m.value, q.2, q.1) := by
      intro x
      rw [hs]
      simp only [bindings, List.flatMap_append, List.flatMap_cons, bindings_extended c p m f t rp fc new hft, List.mem_append]
      grind
    refine ⟨?_, ?_, ?_, ?_⟩
    · intro x hx
      rw [localsOf_mem]
      by_cases hin : x ∈ localsOf loc stmts
      · obtain ⟨f', hf'⟩ := (localsOf_mem _ _ _).mp hin
        exact ⟨f', (hB _).mpr (.inl hf')⟩
      · obtain ⟨f', hf'⟩ := requested_of_mem from_ to_ hlen x hx
        refine ⟨f', (hB _).mpr (.inr (List.mem_map.mpr ⟨(x, f'), (hnew _ _).mpr ⟨hf', hin⟩, ?_⟩))⟩
        simp [hm]
    · exact fun x hx => (hB x).mpr (.inl hx)
    · intro x hx
      rcases (hB x).mp hx with h | h
      · exact .inl h
      · obtain ⟨⟨t', f'⟩, hq, rfl⟩ := List.mem_map.mp h
        obtain ⟨⟨a', b', hz, _⟩, hn⟩ := (hnew _ _).mp hq
        refine .inr ⟨hm, ?_, hn⟩
        have : (t', f') ∈ to_.zip from_ := by rw [hz]; simp
        obtain ⟨i, hi, he⟩ := List.mem_iff_getElem.mp this
        simp only [List.getElem_zip, Prod.mk.injEq] at he
        simp only [List.length_zip] at hi
        exact List.mem_iff_getElem.mpr ⟨i, by simp; omega, by simp [he.1, he.2]⟩
    · intro c' p' m' f' t' r' fc' hmem
      rcases List.mem_append.mp hmem with h | h
      · exact hwf c' p' m' f' t' r' fc' (by rw [hs]; simp [h])
      · rcases List.mem_cons.mp h with h | h
        · cases h; simp [hft]
        · exact hwf c' p' m' f' t' r' fc' (by rw [hs]; simp [h])
  · have hex' : ∀ e ∈ stmts, ¬ LoadOf loc e := fun e he hl => hex ⟨e, he, hl⟩
    obtain ⟨k, e, hk, hres, hl, hbe, _, _⟩ := C34_new ord1 ord2 stmts loc from_ to_ hlen hex'
    rw [hres] at hr
    cases hr
    have hB : ∀ x, x ∈ bindings (stmts.take k ++ e :: stmts.drop k) ↔ x ∈ bindings stmts ∨ x ∈ (from_.zip to_).map fun q => (loc, q.1, q.2) := by
      intro x
      rw [← hbe]
      conv => rhs; rw [← List.take_append_drop k stmts]
      simp only [bindings, List.flatMap_append, List.flatMap_cons, List.mem_append]
      grind
    have hno : ∀ x, x ∉ localsOf loc stmts := by
      intro x hx
      obtain ⟨f, hf⟩ := (localsOf_mem _ _ _).mp hx
      obtain ⟨e', he', hb'⟩ := List.mem_flatMap.mp hf
      cases e' <;> simp only [bindings1, List.not_mem_nil] at hb'
      obtain ⟨q, _, hq⟩ := List.mem_map.mp hb'
      simp only [Prod.mk.injEq] at hq
      exact hex' _ he' ⟨_, _, _, _, _, _, _, hq.1⟩
    refine ⟨?_, fun x hx => (hB x).mpr (.inl hx), ?_, ?_⟩
    · intro x hx
      rw [localsOf_mem]
      obtain ⟨i, hi, rfl⟩ := List.mem_iff_getElem.mp hx
      exact ⟨from_[i]'(by omega), (hB _).mpr (.inr (List.mem_map.mpr ⟨(from_[i]'(by omega), to_[i]),
        List.mem_iff_getElem.mpr ⟨i, by simp; omega, by simp⟩, rfl⟩))⟩
    · intro x hx
      rcases (hB x).mp hx with h | h
      · exact .inl h
      · obtain ⟨q, hq, rfl⟩ := List.mem_map.mp h
        exact .inr ⟨rfl, hq, hno _⟩
    · intro c' p' m' f' t' r' fc' hmem
      rcases List.mem_append.mp hmem with h | h
      · exact hwf c' p' m' f' t' r' fc' (List.mem_of_mem_take h)
      · rcases List.mem_cons.mp h with h | h
        · have hnl : e = newLoad loc from_ to_ := by
            have h2 := hres
            obtain ⟨k2, e2, _⟩ := C34_new ord1 ord2 stmts loc from_ to_ hlen hex'
            unfold insertLoad appendLoad at h2
            rw [if_neg (by simpa using hlen)] at h2
            have hn : stmts.reverse.findIdx? (loadsFrom loc) = none := by
              rw [List.findIdx?_eq_none_iff]
              intro x hx
              have := hex' x (by simpa using hx)
              rw [← loadsFrom_iff] at this
              simpa using this
            simp only [hn, Option.some.injEq] at h2
            have hcnt : ∀ x, LoadOf loc x → x ∈ stmts.take (loadPlace true stmts) ++ [newLoad loc from_ to_] ++ stmts.drop (loadPlace true stmts) → x = newLoad loc from_ to_ := by
              intro x hx hxm
              simp only [List.mem_append, List.mem_cons, List.not_mem_nil, or_false] at hxm
              rcases hxm with (h | h) | h
              · exact absurd hx (hex' x (List.mem_of_mem_take h))
              · exact h
              · exact absurd hx (hex' x (List.mem_of_mem_drop h))
            exact hcnt e hl (by rw [h2]; simp)
          rw [← h] at hnl
          cases hnl
          simp [hlen]
        · exact hwf c' p' m' f' t' r' fc' (List.mem_of_mem_drop h)

/-- **C34 (idempotence).** Inserting the same load again changes nothing. -/
theorem C34_idempotent (ord1 ord2 ord3 ord4 : SymMap → SymMap) (h1 : AnyOrder ord1) (h2 : AnyOrder ord2) (h3 : AnyOrder ord3)
    (h4 : AnyOrder ord4) (stmts : List Expr) (hwf : WF stmts) (loc : Bytes) (from_ to_ : List Bytes) (r : List Expr)
    (hr : insertLoad ord1 ord2 stmts loc from_ to_ = some r) :
    insertLoad ord3 ord4 r loc from_ to_ = some r := by
  have hlen : from_.length = to_.length := by
    by_cases h : from_.length = to_.length
    · exact h
    · rw [(C34_panic ord1 ord2 stmts loc from_ to_).mpr h] at hr; cases hr
  obtain ⟨hav, hkeep, honly, hwf'⟩ := C34_available ord1 ord2 h1 h2 stmts hwf loc from_ to_ r hr
  have hex : ∃ e ∈ r, LoadOf loc e := by
    by_cases hex : ∃ e ∈ stmts, LoadOf loc e
    · obtain ⟨a, b, c, p, m, f, t, rp, fc, new, hs, hm, hb, hres, _⟩ := C34_append ord1 ord2 h1 h2 stmts hwf loc from_ to_ hlen hex
      rw [hres] at hr; cases hr
      exact ⟨_, List.mem_append.mpr (.inr (List.mem_cons_self ..)), ⟨_, _, _, _, _, _, _, hm⟩⟩
    · obtain ⟨k, e, hk, hres, hl, _⟩ := C34_new ord1 ord2 stmts loc from_ to_ hlen (fun e he hl => hex ⟨e, he, hl⟩)
      rw [hres] at hr; cases hr
      exact ⟨e, by simp, hl⟩
  obtain ⟨a, b, c, p, m, f, t, rp, fc, new, hs, hm, hb, hres, hnd, hnew⟩ := C34_append ord3 ord4 h3 h4 r hwf' loc from_ to_ hlen hex
  have : new = [] := by
    cases new with
    | nil => rfl
    | cons q l =>
      obtain ⟨⟨a', b', hz, _⟩, hn⟩ := (hnew q.1 q.2).mp (by simp)
      refine absurd (hav q.1 ?_) hn
      have : (q.1, q.2) ∈ to_.zip from_ := by rw [hz]; simp
      exact (List.of_mem_zip this).1
  subst this
  rw [hres, hs]
  simp

/-! ### replacing loads -/

theorem replace_fold_id (names : List Bytes) (arr : List LoadArg) (len : Nat) (is : List Nat)
    (h : ∀ i ∈ is, ∀ q, arr[i]? = some q → q.2.name ∉ names) :
    is.foldl (replaceStep names) (arr, len) = (arr, len) := by
  induction is with
  | nil => rfl
  | cons i is ih =>
    have h1 : replaceStep names (arr, len) i = (arr, len) := by
      unfold replaceStep
      split
      · rename_i q hq
        rw [if_neg (by simpa using h i (by simp) q hq)]
      · rfl
    rw [List.foldl_cons, h1]
    exact ih fun j hj => h j (by simp [hj])

theorem range_split (n m : Nat) : List.range (n + 1 + m) = List.range n ++ n :: (List.range m).map (n + 1 + ·) := by
  rw [List.range_add, List.range_succ]
  simp

theorem replaceArgs_one (names : List Bytes) (a : List LoadArg) (x : LoadArg) (b : List LoadArg) (hx : x.2.name ∈ names)
    (ha : ∀ q ∈ a, q.2.name ∉ names) (hb : ∀ q ∈ b, q.2.name ∉ names) :
    replaceArgs names (a ++ x :: b) = a ++ b := by
  unfold replaceArgs
  dsimp only
  have hl : (a ++ x :: b).length = a.length + 1 + b.length := by simp; omega
  rw [hl, range_split, List.foldl_append, List.foldl_cons,
    replace_fold_id names (a ++ x :: b) (a.length + 1 + b.length) (List.range a.length)]
  · have hget : (a ++ x :: b)[a.length]? = some x := by simp
    have hc : names.contains x.2.name = true := by simpa using hx
    by_cases hbn : b = []
    · subst hbn
      have : replaceStep names (a ++ [x], a.length + 1 + 0) a.length = (a ++ [x], a.length) := by
        simp [replaceStep, hx]
      simp only [List.length_nil, List.range_zero, List.map_nil, List.foldl_nil]
      rw [this]
      simp
    · have hpos : 0 < b.length := List.length_pos_iff.mpr hbn
      have : replaceStep names (a ++ x :: b, a.length + 1 + b.length) a.length =
          (a ++ b ++ (a ++ x :: b).drop (a.length + 1 + b.length - 1), a.length + 1 + b.length - 1) := by
        unfold replaceStep
        simp only [hget, hc, if_true]
        rw [if_pos (by omega), ← hl, List.take_length]
        simp
      rw [this, replace_fold_id]
      · dsimp only
        rw [List.take_append_of_le_length (by simp), List.take_of_length_le (by simp)]
      · intro i hi q hq
        obtain ⟨j, hj, rfl⟩ := List.mem_map.mp hi
        have hq' := List.mem_of_getElem? hq
        have hmem : q ∈ b := by
          rw [List.append_assoc, List.getElem?_append_right (by omega)] at hq
          have := List.mem_of_getElem? hq
          rcases List.mem_append.mp this with h | h
          · exact h
          · have e : a.length + 1 + b.length - 1 = a.length + b.length := by omega
            rw [e, List.drop_append] at h
            rcases List.mem_append.mp h with h | h
            · rw [List.drop_of_length_le (by omega)] at h; cases h
            · have e2 : a.length + b.length - a.length = b.length - 1 + 1 := by omega
              rw [e2, List.drop_succ_cons] at h
              exact List.mem_of_mem_drop h
        exact hb q hmem
  · intro i hi q hq
    rw [List.mem_range] at hi
    rw [List.getElem?_append_left hi] at hq
    exact ha q (List.mem_of_getElem? hq)

theorem replaceArgs_none (names : List Bytes) (l : List LoadArg) (h : ∀ q ∈ l, q.2.name ∉ names) : replaceArgs names l = l := by
  unfold replaceArgs
  rw [replace_fold_id]
  · simp
  · exact fun i _ q hq => h q (List.mem_of_getElem? hq)

/-- at most one symbol of each load is replaced -/
def OnePerLoad (names : List Bytes) (stmts : List Expr) : Prop :=
  ∀ c p m f t r fc, Expr.load c p m f t r fc ∈ stmts → ((f.zip t).filter fun q => q.2.name ∈ names).length ≤ 1

theorem replaceArgs_filter (names : List Bytes) (l : List LoadArg) (h : (l.filter fun q => q.2.name ∈ names).length ≤ 1) :
    replaceArgs names l = l.filter fun q => q.2.name ∉ names := by
  by_cases hn : ∀ q ∈ l, q.2.name ∉ names
  · rw [replaceArgs_none names l hn, eq_comm, List.filter_eq_self]
    intro q hq; simpa using hn q hq
  · have : ∃ q ∈ l, q.2.name ∈ names := by
      apply Classical.byContradiction
      intro hc
      exact hn fun q hq hm => hc ⟨q, hq, hm⟩
    obtain ⟨x, hxl, hx⟩ := this
    obtain ⟨a, b, rfl⟩ := List.append_of_mem hxl
    have hx' : decide (x.2.name ∈ names) = true := by simpa using hx
    rw [List.filter_append, List.filter_cons, if_pos hx'] at h
    simp only [List.length_append, List.length_cons] at h
    have ha : ∀ q ∈ a, q.2.name ∉ names := by
      intro q hq hm
      have : q ∈ a.filter fun q => decide (q.2.name ∈ names) := List.mem_filter.mpr ⟨hq, by simpa using hm⟩
      have := List.length_pos_of_mem this
      omega
    have hb : ∀ q ∈ b, q.2.name ∉ names := by
      intro q hq hm
      have : q ∈ b.filter fun q => decide (q.2.name ∈ names) := List.mem_filter.mpr ⟨hq, by simpa using hm⟩
      have := List.length_pos_of_mem this
      omega
    rw [replaceArgs_one names a x b hx ha hb, List.filter_append, List.filter_cons, if_neg (by simpa using hx)]
    congr 1
    · rw [eq_comm, List.filter_eq_self]; intro q hq; simpa using ha q hq
    · rw [eq_comm, List.filter_eq_self]; intro q hq; simpa using hb q hq

theorem zip_map_fst_snd {α β} (l : List (α × β)) : (l.map (·.1)).zip (l.map (·.2)) = l := by
  induction l with
  | nil => rfl
  | cons p l ih => simp [ih]

theorem replaceStmt_bindings (names : List Bytes) (e : Expr)
    (h : ∀ c p m f t r fc, e = .load c p m f t r fc → ((f.zip t).filter fun q => q.2.name ∈ names).length ≤ 1) :
    (replaceStmt names e).flatMap bindings1 = (bindings1 e).filter fun b => b.2.2 ∉ names := by
  cases e
  case load c p m f t r fc =>
    simp only [replaceStmt, replaceArgs_filter names _ (h _ _ _ _ _ _ _ rfl), bindings1]
    rw [List.filter_map]
    split
    · rename_i he
      rw [List.isEmpty_iff] at he
      have : (List.filter ((fun b => decide (b.2.2 ∉ names)) ∘ fun p : LoadArg => (m.value, p.1.name, p.2.name)) (f.zip t)) = [] := he
      rw [this]
      rfl
    · simp only [List.flatMap_cons, List.flatMap_nil, List.append_nil, bindings1, zip_map_fst_snd]
      rfl
  all_goals rfl

/-- **C34 (replacing), partial.** After `ReplaceLoad` every requested symbol comes from the given module and from nowhere else, and
all other symbols are still loaded. Missing: loads of which two or more symbols are replaced at once, where it fails, see below. -/
theorem C34_replace_partial (ord1 ord2 : SymMap → SymMap) (h1 : AnyOrder ord1) (h2 : AnyOrder ord2) (stmts : List Expr)
    (loc : Bytes) (from_ to_ : List Bytes) (hone : OnePerLoad to_ stmts) (r : List Expr)
    (hr : replaceLoad ord1 ord2 stmts loc from_ to_ = some r) :
    (∀ t ∈ to_, t ∈ localsOf loc r) ∧
    (∀ b ∈ bindings r, b.2.2 ∈ to_ → b.1 = loc ∧ (b.2.1, b.2.2) ∈ from_.zip to_) ∧
    (∀ b, b.2.2 ∉ to_ → (b ∈ bindings r ↔ b ∈ bindings stmts)) := by
  unfold replaceLoad at hr
  split at hr
  · cases hr
  · have hb : bindings (stmts.flatMap (replaceStmt to_)) = (bindings stmts).filter fun b => b.2.2 ∉ to_ := by
      clear hr
      unfold bindings
      induction stmts with
      | nil => rfl
      | cons e l ih =>
        rw [List.flatMap_cons, List.flatMap_append, List.flatMap_cons, List.filter_append,
          replaceStmt_bindings to_ e (fun c p m f t r fc he => hone c p m f t r fc (by simp [he])),
          ih (fun c p m f t r fc he => hone c p m f t r fc (by simp [he]))]
    have hw : WF (stmts.flatMap (replaceStmt to_)) := by
      intro c p m f t r fc he
      obtain ⟨e, he1, he2⟩ := List.mem_flatMap.mp he
      unfold replaceStmt at he2
      split at he2
      · dsimp only at he2
        split at he2
        · cases he2
        · simp only [List.mem_cons, List.not_mem_nil, or_false, Expr.load.injEq] at he2
          obtain ⟨_, _, _, rfl, rfl, _⟩ := he2
          simp
      · rename_i hnl
        simp only [List.mem_cons, List.not_mem_nil, or_false] at he2
        exact absurd he2.symm (hnl _ _ _ _ _ _ _)
    obtain ⟨a, b, c, _⟩ := C34_available ord1 ord2 h1 h2 _ hw loc from_ to_ r hr
    refine ⟨a, ?_, ?_⟩
    · intro x hx ht
      rcases c x hx with h | h
      · rw [hb, List.mem_filter] at h
        simp [ht] at h
      · exact ⟨h.1, h.2.1⟩
    · intro x hx
      constructor
      · intro h
        rcases c x h with h | h
        · rw [hb, List.mem_filter] at h; exact h.1
        · exact absurd (List.of_mem_zip h.2.1).2 hx
      · intro h
        exact b x (by rw [hb, List.mem_filter]; exact ⟨h, by simpa using hx⟩)

/-! #### cases -/

/-- **C34 (ReplaceLoad leaves no empty load).** Every load of the result loads something. -/
theorem C34_replace_no_empty (ord1 ord2 : SymMap → SymMap) (stmts : List Expr) (loc : Bytes) (from_ to_ : List Bytes)
    (hne : to_ ≠ []) (res : List Expr) (hr : replaceLoad ord1 ord2 stmts loc from_ to_ = some res) :
    ∀ c p m f t r fc, Expr.load c p m f t r fc ∈ res → t ≠ [] := by
  have h0 : ∀ c p m f t r fc, Expr.load c p m f t r fc ∈ stmts.flatMap (replaceStmt to_) → t ≠ [] := by
    intro c p m f t r fc h
    obtain ⟨e, _, h⟩ := List.mem_flatMap.mp h
    unfold replaceStmt at h
    split at h
    · dsimp only at h
      split at h
      · cases h
      · rename_i hl
        simp only [List.mem_singleton] at h
        cases h
        intro h'
        simp only [List.map_eq_nil_iff] at h'
        rw [h'] at hl
        exact hl rfl
    · rename_i hno
      simp only [List.mem_singleton] at h
      exact absurd h.symm (hno _ _ _ _ _ _ _)
  unfold replaceLoad at hr
  split at hr
  · cases hr
  · generalize stmts.flatMap (replaceStmt to_) = l at h0 hr
    unfold insertLoad at hr
    split at hr
    · cases hr
    · split at hr
      · rename_i r1 hap
        cases hr
        unfold appendLoad at hap
        dsimp only at hap
        split at hap
        · cases hap
        · cases hap
          intro c p m f t r fc h
          obtain ⟨i, hi, hg⟩ := List.mem_iff_getElem.mp h
          rw [List.getElem_modify] at hg
          split at hg
          · have hi' : i < l.length := by simpa using hi
            generalize he : l[i]'hi' = e at hg
            have hmem : e ∈ l := he ▸ List.getElem_mem _
            cases e
            case load c' p' m' f' t' r' fc' =>
              unfold appendToLoad at hg
              dsimp only at hg
              split at hg
              · cases hg; exact h0 _ _ _ _ _ _ _ hmem
              · cases hg
                have := h0 _ _ _ _ _ _ _ hmem
                intro h'
                exact this (List.append_eq_nil_iff.mp h').1
            all_goals cases hg
          · exact h0 c p m f t r fc (hg ▸ List.getElem_mem _)
      · cases hr
        intro c p m f t r fc h
        simp only [List.mem_append, List.mem_singleton] at h
        rcases h with (h | h) | h
        · exact h0 _ _ _ _ _ _ _ (List.mem_of_mem_take h)
        · cases h
          simpa using hne
        · exact h0 _ _ _ _ _ _ _ (List.mem_of_mem_drop h)

def ident (n : Bytes) : IdentN := { name := n }

def exFile : List Expr := [
  .string { value := b!"doc" },
  .load {} {} { value := b!"//a:b.bzl" } [ident b!"x", ident b!"y"] [ident b!"x", ident b!"z"] {} false,
  .load {} {} { value := b!"//c:d.bzl" } [ident b!"u"] [ident b!"u"] {} false]

example : WF exFile := by
  intro c p m f t r fc h
  simp only [exFile, List.mem_cons, List.not_mem_nil, or_false, reduceCtorEq, false_or, Expr.load.injEq] at h
  rcases h with h | h <;> (obtain ⟨_, _, _, rfl, rfl, _⟩ := h; rfl)

example : AnyOrder List.reverse := fun l => List.reverse_perm l

/-- `x` and `z` are there, `v` is appended to the load of the same module -/
example : insertLoad id List.reverse exFile b!"//a:b.bzl" [b!"x", b!"v"] [b!"x", b!"v"] = some [
  .string { value := b!"doc" },
  .load {} {} { value := b!"//a:b.bzl" } [ident b!"x", ident b!"y", ident b!"v"] [ident b!"x", ident b!"z", ident b!"v"] {} false,
  .load {} {} { value := b!"//c:d.bzl" } [ident b!"u"] [ident b!"u"] {} false] := rfl

/-- a new load goes after the docstring -/
example : (insertLoad id id exFile b!"//n:n.bzl" [b!"x"] [b!"x"]).map (·[1]?) =
  some (some (.load {} {} { value := b!"//n:n.bzl" } [ident b!"x"] [ident b!"x"] {} true)) := rfl

example : replaceLoad id id exFile b!"//c:d.bzl" [b!"x"] [b!"x"] = some [
  .string { value := b!"doc" },
  .load {} {} { value := b!"//a:b.bzl" } [ident b!"y"] [ident b!"z"] {} false,
  .load {} {} { value := b!"//c:d.bzl" } [ident b!"u", ident b!"x"] [ident b!"u", ident b!"x"] {} false] := rfl

/-- **C34 (finding).** `ReplaceLoad` deletes from the list it is iterating over: replacing `x`, `y` and `z` of one load leaves `y` and
`z` there, so that they are loaded twice, from different modules. -/
theorem C34_replace_witness :
    replaceLoad id id [.load {} {} { value := b!"//a:b.bzl" } [ident b!"x", ident b!"y", ident b!"z"]
      [ident b!"x", ident b!"y", ident b!"z"] {} false] b!"//n:n.bzl" [b!"x", b!"y", b!"z"] [b!"x", b!"y", b!"z"] = some [
    .load {} {} { value := b!"//n:n.bzl" } [ident b!"x", ident b!"y", ident b!"z"] [ident b!"x", ident b!"y", ident b!"z"] {} true,
    .load {} {} { value := b!"//a:b.bzl" } [ident b!"y", ident b!"z"] [ident b!"y", ident b!"z"] {} false] := rfl

/-- **C34 (finding).** A requested symbol whose local name is already loaded from the module under another original name is ignored:
`load(m, v = "old")` stays although `v = "new"` was asked for. -/
theorem C34_other_origin_witness :
    insertLoad id id [.load {} {} { value := b!"//m:m.bzl" } [ident b!"old"] [ident b!"v"] {} false] b!"//m:m.bzl" [b!"new"] [b!"v"] =
    some [.load {} {} { value := b!"//m:m.bzl" } [ident b!"old"] [ident b!"v"] {} false] := rfl

end Verif.Props.LoadEdit
