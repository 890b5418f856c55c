import Verif.Model.Targets
import Verif.Props.Rules
import Verif.Props.ListEdit
import Verif.Proofs.Walk
/-
C68: which rules a buildozer target means, and what `new` and `delete` do to a file.
-/
namespace Verif.Props.Targets
open Verif Verif.Syntax Verif.Walk Verif.Edit Verif.Cmd Verif.Target Verif.Props.Rules

/-! ### Specification -/

def IsCall (e : Expr) : Prop := ∃ c x p l e' a b, e = .call c x p l e' a b

/-- `y` is reached from `e` along the path without passing through another call -/
inductive Reach : Expr → List Nat → Expr → Prop
  | here (e) : Reach e [] e
  | down {e i x p y} : ¬ IsCall e → (slots e)[i]? = some x → Reach x p y → Reach e (i :: p) y

/-- the rules of a file: the calls that are not inside other calls -/
def IsRule (t : Tree) (r : Ptr) (c : Expr) : Prop := ∃ e, (r.stmt, e) ∈ t.stmts ∧ Reach e r.path c ∧ IsCall c

/-- Different statements have different identities, and the next one is not in use. -/
structure Proper (t : Tree) : Prop where
  nodup : (t.stmts.map (·.1)).Nodup
  fresh : ∀ q ∈ t.stmts, q.1 < t.next

/-- the value of a string of digits -/
def decimal (ds : Bytes) : Nat := ds.foldl (fun n c => n * 10 + (c.toNat - 48)) 0

/-- the string is this (64-bit) number in decimal notation -/
def IsNumber (s : Bytes) (n : Int) : Prop :=
  ∃ ds, ds ≠ [] ∧ (∀ c ∈ ds, 48 ≤ c ∧ c ≤ 57) ∧
    (((s = ds ∨ s = 43 :: ds) ∧ n = (decimal ds : Int) ∧ n < 2 ^ 63) ∨ (s = 45 :: ds ∧ n = -(decimal ds : Int) ∧ -2 ^ 63 ≤ n))

/-- The statement is called by the target: it has the name, or the target is `%n` and the statement is a call starting in line n. -/
def Called (dir : Option Bytes) (stmts : List Expr) (name : Bytes) (e : Expr) : Prop :=
  Named dir stmts name e ∨ (IsCall e ∧ ∃ s, name = 37 :: s ∧ IsNumber s (e.startPos.line : Int))

/-- a call of exports_files (by any dotted name that is exactly this) whose first argument contains the file in one of its lists -/
def Exports (name : Bytes) (e : Expr) : Prop :=
  OfKind b!"exports_files" e ∧ ∃ c x p a l e' m n, e = .call c x p (a :: l) e' m n ∧ (listFind a name []).isSome = true

/-- the function of the call covers the line -/
def Covers (n : Int) (e : Expr) : Prop :=
  ∃ c x p l e' a b, e = .call c x p l e' a b ∧ (x.startPos.line : Int) ≤ n ∧ n ≤ (x.endPos.line : Int)

/-- What a target other than `__pkg__` means. -/
inductive Means (dir : Option Bytes) (t : Tree) (name : Bytes) : List Ptr → Prop
  /-- the first statement that is called so -/
  | named (pre id e post) : t.stmts = pre ++ (id, e) :: post → Called dir t.exprs name e → (∀ q ∈ pre, ¬ Called dir t.exprs name q.2) →
      Means dir t name [⟨id, []⟩]
  /-- the first exports_files that contains the file -/
  | exported (pre r post) : (∀ q ∈ t.stmts, ¬ Called dir t.exprs name q.2) →
      t.rules (fun _ => true) = pre ++ r :: post → Exports name (t.callAt r) → (∀ r' ∈ pre, ¬ Exports name (t.callAt r')) → Means dir t name [r]
  /-- all rules -/
  | all : (∀ q ∈ t.stmts, ¬ Called dir t.exprs name q.2) → (∀ r c, IsRule t r c → ¬ Exports name c) → (name = b!"all" ∨ name = b!"*") →
      Means dir t name (t.rules fun _ => true)
  /-- the rules of a kind, in the order of all rules; the empty kind means all rules -/
  | kind (k rs) : (∀ q ∈ t.stmts, ¬ Called dir t.exprs name q.2) → (∀ r c, IsRule t r c → ¬ Exports name c) → name = 37 :: k → (∀ n, ¬ IsNumber k n) →
      rs.Sublist (t.rules fun _ => true) → (∀ r, r ∈ rs ↔ ∃ c, IsRule t r c ∧ (k = [] ∨ OfKind k c)) → Means dir t name rs
  /-- the only rule whose function covers the line -/
  | line (s n r c) : (∀ q ∈ t.stmts, ¬ Called dir t.exprs name q.2) → (∀ r c, IsRule t r c → ¬ Exports name c) → name = 37 :: s → IsNumber s n →
      IsRule t r c → Covers n c → (∀ r' c', IsRule t r' c' → Covers n c' → r' = r) → Means dir t name [r]

/-! ### Rules -/

theorem isCall_callPaths (n : Nat) {e : Expr} (h : IsCall e) : callPaths (n + 1) e = [[]] := by
  obtain ⟨_, _, _, _, _, _, _, rfl⟩ := h; rfl

theorem notCall_callPaths (n : Nat) {e : Expr} (h : ¬ IsCall e) :
    callPaths (n + 1) e = (slots e).zipIdx.flatMap fun q => (callPaths n q.1).map (q.2 :: ·) := by
  cases e <;> first | rfl | exact absurd ⟨_, _, _, _, _, _, _, rfl⟩ h

theorem zipIdx_mem {l : List Expr} {x : Expr} {i : Nat} : (x, i) ∈ l.zipIdx ↔ l[i]? = some x := by
  rw [List.mem_zipIdx_iff_getElem?]

theorem callPaths_reach : ∀ (n : Nat) (e : Expr) (p : List Nat), p ∈ callPaths n e → ∃ c, Reach e p c ∧ IsCall c := by
  intro n
  induction n with
  | zero => intro e p h; cases h
  | succ n ih =>
    intro e p h
    by_cases hc : IsCall e
    · rw [isCall_callPaths n hc, List.mem_singleton] at h
      subst h
      exact ⟨e, .here e, hc⟩
    · rw [notCall_callPaths n hc, List.mem_flatMap] at h
      obtain ⟨q, hq, h⟩ := h
      obtain ⟨p', hp', rfl⟩ := List.mem_map.mp h
      obtain ⟨c, h1, h2⟩ := ih _ _ hp'
      exact ⟨c, .down hc (zipIdx_mem.mp hq) h1, h2⟩

theorem size_slot {e x : Expr} (h : x ∈ slots e) : size x < size e := by
  exact Verif.Walk.size_slot_lt h

theorem reach_callPaths {e : Expr} {p : List Nat} {c : Expr} (h : Reach e p c) (hc : IsCall c) : ∀ n, size e ≤ n → p ∈ callPaths n e := by
  induction h with
  | here e =>
    intro n hn
    obtain ⟨m, rfl⟩ : ∃ m, n = m + 1 := ⟨n - 1, by have := Verif.Walk.size_pos e; omega⟩
    rw [isCall_callPaths m hc]; simp
  | @down e i x p y hne hx _ ih =>
    intro n hn
    have hs := size_slot (List.mem_of_getElem? hx)
    obtain ⟨m, rfl⟩ : ∃ m, n = m + 1 := ⟨n - 1, by omega⟩
    rw [notCall_callPaths m hne, List.mem_flatMap]
    exact ⟨(x, i), zipIdx_mem.mpr hx, List.mem_map.mpr ⟨p, ih hc m (by omega), rfl⟩⟩

theorem reach_nodeAt {e : Expr} {p : List Nat} {c : Expr} (h : Reach e p c) : nodeAt p e = c := by
  induction h with
  | here => rfl
  | down _ hx _ ih => unfold nodeAt; rw [hx]; exact ih

theorem find_id {l : List (Nat × Expr)} (h : (l.map (·.1)).Nodup) {id : Nat} {e : Expr} (hm : (id, e) ∈ l) : l.find? (fun q => q.1 = id) = some (id, e) := by
  induction l with
  | nil => cases hm
  | cons q l ih =>
    rw [List.map_cons, List.nodup_cons] at h
    rw [List.find?_cons]
    rcases List.mem_cons.mp hm with rfl | hm
    · simp
    · have hne : ¬ q.1 = id := by
        intro he
        exact h.1 (List.mem_map.mpr ⟨_, hm, he.symm⟩)
      simp only [hne, decide_false]
      exact ih h.2 hm

theorem isRule_callAt {t : Tree} (ht : Proper t) {r : Ptr} {c : Expr} (h : IsRule t r c) : t.callAt r = c := by
  obtain ⟨e, hm, hr, _⟩ := h
  unfold Tree.callAt
  rw [find_id ht.nodup hm]
  exact reach_nodeAt hr

theorem mem_rules {t : Tree} (p : Expr → Bool) (r : Ptr) : r ∈ t.rules p ↔ ∃ c, IsRule t r c ∧ p c = true := by
  unfold Tree.rules
  rw [List.mem_flatMap]
  constructor
  · rintro ⟨q, hq, h⟩
    obtain ⟨path, hp, rfl⟩ := List.mem_map.mp h
    rw [List.mem_filter] at hp
    obtain ⟨c, h1, h2⟩ := callPaths_reach _ _ _ hp.1
    exact ⟨c, ⟨q.2, hq, h1, h2⟩, by rw [← reach_nodeAt h1]; exact hp.2⟩
  · rintro ⟨c, ⟨e, hm, hr, hc⟩, hp⟩
    exact ⟨_, hm, List.mem_map.mpr ⟨r.path, List.mem_filter.mpr ⟨reach_callPaths hr hc _ (Nat.le_refl _), by rw [reach_nodeAt hr]; exact hp⟩, rfl⟩⟩

theorem callPaths_nodup : ∀ (n : Nat) (e : Expr), (callPaths n e).Nodup := by
  intro n
  induction n with
  | zero => intro e; exact List.nodup_nil
  | succ n ih =>
    intro e
    by_cases hc : IsCall e
    · rw [isCall_callPaths n hc]; simp
    · rw [notCall_callPaths n hc]
      unfold List.flatMap
      rw [List.Nodup, List.pairwise_flatten]
      constructor
      · intro l hl
        obtain ⟨q, _, rfl⟩ := List.mem_map.mp hl
        exact List.pairwise_map.mpr ((ih _).imp fun h e => h (by cases e; rfl))
      · rw [List.pairwise_map]
        have : ((slots e).zipIdx).Pairwise (fun a b => a.2 ≠ b.2) := by
          have h := List.nodup_range' (s := 0) (n := (slots e).length) (step := 1) (by decide)
          rw [← List.zipIdx_map_snd 0 (slots e)] at h
          exact List.pairwise_map.mp h
        refine this.imp ?_
        intro a b hab x hx y hy
        obtain ⟨_, _, rfl⟩ := List.mem_map.mp hx
        obtain ⟨_, _, rfl⟩ := List.mem_map.mp hy
        intro h
        exact hab (List.cons.inj h).1

theorem rules_nodup {t : Tree} (ht : Proper t) (p : Expr → Bool) : (t.rules p).Nodup := by
  unfold Tree.rules List.flatMap
  rw [List.Nodup, List.pairwise_flatten]
  constructor
  · intro l hl
    obtain ⟨q, _, rfl⟩ := List.mem_map.mp hl
    exact List.pairwise_map.mpr (((callPaths_nodup _ _).filter _).imp fun h e => h (by cases e; rfl))
  · rw [List.pairwise_map]
    refine (List.pairwise_map.mp ht.nodup).imp ?_
    intro a b hab x hx y hy
    obtain ⟨_, _, rfl⟩ := List.mem_map.mp hx
    obtain ⟨_, _, rfl⟩ := List.mem_map.mp hy
    intro h
    exact hab (Ptr.mk.inj h).1

/-- **C68 (rules).** The rules of a file that satisfy a condition are exactly the calls that do and are not inside another call, each
once; they are listed in the same order as all rules. -/
theorem C68_rules {t : Tree} (ht : Proper t) (p : Expr → Bool) :
    (∀ r, r ∈ t.rules p ↔ ∃ c, IsRule t r c ∧ p c = true) ∧ (t.rules p).Nodup ∧ (t.rules p).Sublist (t.rules fun _ => true) ∧
    (∀ r c, IsRule t r c → t.callAt r = c) := by
  refine ⟨mem_rules p, rules_nodup ht p, ?_, fun r c h => isRule_callAt ht h⟩
  unfold Tree.rules
  induction t.stmts with
  | nil => exact List.Sublist.refl _
  | cons q l ih =>
    rw [List.flatMap_cons, List.flatMap_cons]
    refine List.Sublist.append (List.Sublist.map _ ?_) ih
    have : ∀ l : List (List Nat), l.filter (fun _ => true) = l := fun l => List.filter_eq_self.mpr (by simp)
    rw [this]
    exact List.filter_sublist

/-! ### Line numbers -/

theorem digits_spec : ∀ (s : Bytes) (acc n : Nat), digits s acc = some n ↔ (∀ c ∈ s, 48 ≤ c ∧ c ≤ 57) ∧ n = s.foldl (fun n c => n * 10 + (c.toNat - 48)) acc := by
  intro s
  induction s with
  | nil => intro acc n; simp [digits, eq_comm]
  | cons c s ih =>
    intro acc n
    unfold digits
    by_cases h : 48 ≤ c ∧ c ≤ 57
    · rw [if_pos h, ih]
      constructor
      · rintro ⟨h1, h2⟩
        refine ⟨fun d hd => ?_, h2⟩
        rcases List.mem_cons.mp hd with rfl | hd
        · exact h
        · exact h1 d hd
      · rintro ⟨h1, h2⟩
        exact ⟨fun d hd => h1 d (List.mem_cons_of_mem _ hd), h2⟩
    · rw [if_neg h]
      refine ⟨fun e => (by cases e), fun h' => absurd (h'.1 c (List.mem_cons_self ..)) h⟩

theorem atoi_iff (s : Bytes) (n : Int) : atoi s = some n ↔ IsNumber s n := by
  have hdig : ∀ (ds : Bytes), (∀ c ∈ ds, 48 ≤ c ∧ c ≤ 57) → ∀ b : UInt8, (b = 45 ∨ b = 43) → ds.head? ≠ some b := by
    intro ds h b hb he
    cases ds with
    | nil => cases he
    | cons c ds =>
      have e : c = b := by simpa using he
      have := h c (List.mem_cons_self ..)
      rw [e] at this
      rcases hb with rfl | rfl
      · exact absurd this (by decide)
      · exact absurd this (by decide)
  unfold atoi
  dsimp only
  by_cases hneg : s.head? = some 45
  · obtain ⟨ds, rfl⟩ : ∃ ds, s = 45 :: ds := by cases s with | nil => cases hneg | cons c s => exact ⟨s, by rw [show c = 45 by simpa using hneg]⟩
    simp only [List.drop_succ_cons, List.drop_zero, List.head?_cons, true_or, if_true]
    constructor
    · intro h
      split at h
      · cases h
      · rename_i hne
        split at h
        · cases h
        · rename_i m hm
          obtain ⟨h1, h2⟩ := (digits_spec _ _ _).mp hm
          split at h
          · rename_i hle
            cases h
            refine ⟨ds, hne, h1, .inr ⟨rfl, by rw [h2]; rfl, ?_⟩⟩
            have : (m : Int) ≤ 2 ^ 63 := by exact_mod_cast hle
            omega
          · cases h
    · rintro ⟨ds', hne, h1, h⟩
      rcases h with ⟨h | h, _⟩ | ⟨h, h2, h3⟩
      · subst h; exact absurd rfl (hdig _ h1 45 (.inl rfl))
      · exact absurd (List.cons.inj h).1 (by decide)
      · have hds : ds = ds' := (List.cons.inj h).2
        subst hds
        rw [if_neg hne, (digits_spec ds 0 _).mpr ⟨h1, rfl⟩]
        dsimp only
        have hd : List.foldl (fun n (c : UInt8) => n * 10 + (c.toNat - 48)) 0 ds = decimal ds := rfl
        rw [hd, if_pos (by omega), h2]
  · have hb : (decide (s.head? = some 45) = true) = False := by simp [hneg]
    simp only [hneg, false_or, if_false]
    by_cases hpos : s.head? = some 43
    · obtain ⟨ds, rfl⟩ : ∃ ds, s = 43 :: ds := by cases s with | nil => cases hpos | cons c s => exact ⟨s, by rw [show c = 43 by simpa using hpos]⟩
      rw [if_pos hpos]
      simp only [List.drop_succ_cons, List.drop_zero]
      constructor
      · intro h
        split at h
        · cases h
        · rename_i hne
          split at h
          · cases h
          · rename_i m hm
            obtain ⟨h1, h2⟩ := (digits_spec _ _ _).mp hm
            split at h
            · rename_i hlt
              cases h
              exact ⟨ds, hne, h1, .inl ⟨.inr rfl, by rw [h2]; rfl, by exact_mod_cast hlt⟩⟩
            · cases h
      · rintro ⟨ds', hne, h1, h⟩
        rcases h with ⟨h | h, h2, h3⟩ | ⟨h, h2, h3⟩
        · subst h; exact absurd rfl (hdig _ h1 43 (.inr rfl))
        · have hds : ds = ds' := (List.cons.inj h).2
          subst hds
          rw [if_neg hne, (digits_spec ds 0 _).mpr ⟨h1, rfl⟩]
          dsimp only
          have hd : List.foldl (fun n (c : UInt8) => n * 10 + (c.toNat - 48)) 0 ds = decimal ds := rfl
          rw [hd, if_pos (by omega), h2]
        · exact absurd (List.cons.inj h).1 (by decide)
    · rw [if_neg hpos]
      constructor
      · intro h
        split at h
        · cases h
        · rename_i hne
          split at h
          · cases h
          · rename_i m hm
            obtain ⟨h1, h2⟩ := (digits_spec _ _ _).mp hm
            split at h
            · rename_i hlt
              cases h
              exact ⟨s, hne, h1, .inl ⟨.inl rfl, by rw [h2]; rfl, by exact_mod_cast hlt⟩⟩
            · cases h
      · rintro ⟨ds', hne, h1, h⟩
        rcases h with ⟨h | h, h2, h3⟩ | ⟨h, h2, h3⟩
        · subst h
          rw [if_neg hne, (digits_spec s 0 _).mpr ⟨h1, rfl⟩]
          dsimp only
          have hd : List.foldl (fun n (c : UInt8) => n * 10 + (c.toNat - 48)) 0 s = decimal s := rfl
          rw [hd, if_pos (by omega), h2]
        · subst h; exact absurd rfl hpos
        · subst h; exact absurd rfl hneg

/-! ### What a target means -/

theorem prefix_percent (name : Bytes) : hasPrefix name b!"%" = true ↔ ∃ s, name = 37 :: s := by
  unfold hasPrefix
  rw [List.isPrefixOf_iff_prefix]
  exact ⟨fun ⟨r, h⟩ => ⟨r, h.symm⟩, fun ⟨r, h⟩ => ⟨r, h.symm⟩⟩

theorem startPos_call (c x p l e a b) : (Expr.call c x p l e a b).startPos = x.startPos := by
  conv => lhs; unfold Expr.startPos

theorem isWanted_iff (dir : Option Bytes) (stmts : List Expr) (name : Bytes) (hn : name ≠ b!"__pkg__") (e : Expr) :
    isWanted (implicitRuleName dir stmts) name e = true ↔ Called dir stmts name e := by
  unfold isWanted Called
  split
  · rename_i c x p l e' a b
    simp only [hn, decide_false, Bool.false_and, Bool.or_false, Bool.or_eq_true, decide_eq_true_eq, startPos_call]
    rw [ruleName_named dir stmts name c x p l e' a b]
    refine or_congr Iff.rfl ?_
    unfold lineOf
    constructor
    · intro h
      refine ⟨⟨_, _, _, _, _, _, _, rfl⟩, ?_⟩
      by_cases hp : hasPrefix name b!"%" = true
      · rw [if_pos hp] at h
        obtain ⟨s, rfl⟩ := (prefix_percent name).mp hp
        refine ⟨s, rfl, ?_⟩
        cases ha : atoi s with
        | none => rw [List.drop_succ_cons, List.drop_zero, ha] at h; simp at h
        | some n =>
          rw [List.drop_succ_cons, List.drop_zero, ha] at h
          rw [h]
          exact (atoi_iff s n).mp ha
      · rw [if_neg hp] at h; omega
    · rintro ⟨_, s, rfl, h⟩
      rw [if_pos ((prefix_percent _).mpr ⟨s, rfl⟩), List.drop_succ_cons, List.drop_zero, (atoi_iff _ _).mpr h]
      rfl
  · rename_i hne
    constructor
    · intro h; cases h
    · rintro (⟨_, _, _, _, _, _, _, rfl, _⟩ | ⟨⟨_, _, _, _, _, _, _, rfl⟩, _⟩)
      · exact absurd rfl (hne _ _ _ _ _ _ _)
      · exact absurd rfl (hne _ _ _ _ _ _ _)

theorem findIdx_split {α : Type} (p : α → Bool) (l : List α) :
    (l.findIdx? p = none ∧ ∀ x ∈ l, p x = false) ∨ ∃ pre x post, l = pre ++ x :: post ∧ p x = true ∧ (∀ y ∈ pre, p y = false) ∧ l.findIdx? p = some pre.length := by
  induction l with
  | nil => exact .inl ⟨rfl, by simp⟩
  | cons y l ih =>
    rw [List.findIdx?_cons]
    by_cases hy : p y = true
    · rw [if_pos hy]; exact .inr ⟨[], y, l, rfl, hy, by simp, rfl⟩
    · rw [if_neg hy]
      have hy' : p y = false := by simpa using hy
      rcases ih with ⟨h0, h1⟩ | ⟨pre, x, post, rfl, hx, hp, hi⟩
      · refine .inl ⟨by rw [h0]; rfl, ?_⟩
        intro x hx
        rcases List.mem_cons.mp hx with rfl | hx
        · exact hy'
        · exact h1 x hx
      · refine .inr ⟨y :: pre, x, post, rfl, hx, ?_, by rw [hi]; rfl⟩
        intro z hz
        rcases List.mem_cons.mp hz with rfl | hz
        · exact hy'
        · exact hp z hz

theorem find_split {α : Type} (p : α → Bool) (l : List α) :
    (l.find? p = none ∧ ∀ x ∈ l, p x = false) ∨ ∃ pre x post, l = pre ++ x :: post ∧ p x = true ∧ (∀ y ∈ pre, p y = false) ∧ l.find? p = some x := by
  induction l with
  | nil => exact .inl ⟨rfl, by simp⟩
  | cons y l ih =>
    rw [List.find?_cons]
    cases hy : p y with
    | true => exact .inr ⟨[], y, l, rfl, hy, by simp, rfl⟩
    | false =>
      rcases ih with ⟨h0, h1⟩ | ⟨pre, x, post, rfl, hx, hp, hi⟩
      · refine .inl ⟨h0, ?_⟩
        intro x hx
        rcases List.mem_cons.mp hx with rfl | hx
        · exact hy
        · exact h1 x hx
      · refine .inr ⟨y :: pre, x, post, rfl, hx, ?_, hi⟩
        intro z hz
        rcases List.mem_cons.mp hz with rfl | hz
        · exact hy
        · exact hp z hz

/-- looking for a rule: either the first statement called so, or none is -/
theorem findRule_split (dir : Option Bytes) (t : Tree) (name : Bytes) (hn : name ≠ b!"__pkg__") :
    (t.findRule dir name = (t, none) ∧ ∀ q ∈ t.stmts, ¬ Called dir t.exprs name q.2) ∨
    ∃ pre id e post, t.stmts = pre ++ (id, e) :: post ∧ Called dir t.exprs name e ∧ (∀ q ∈ pre, ¬ Called dir t.exprs name q.2) ∧
      t.findRule dir name = (t, some ⟨id, []⟩) := by
  unfold Tree.findRule indexOfRule
  rw [if_neg hn]
  have hmap : t.exprs.findIdx? (isWanted (implicitRuleName dir t.exprs) name) =
      t.stmts.findIdx? (fun q => isWanted (implicitRuleName dir t.exprs) name q.2) := by
    unfold Tree.exprs; rw [List.findIdx?_map]; rfl
  have hno : ∀ e, isWanted (implicitRuleName dir t.exprs) name e = false → ¬ Called dir t.exprs name e := by
    intro e h hc
    rw [(isWanted_iff dir t.exprs name hn e).mpr hc] at h; cases h
  rcases findIdx_split (fun q : Nat × Expr => isWanted (implicitRuleName dir t.exprs) name q.2) t.stmts with ⟨h0, h1⟩ | ⟨pre, x, post, he, hx, hp, hi⟩
  · refine .inl ⟨by rw [hmap, h0]; rfl, fun q hq => hno _ (h1 q hq)⟩
  · obtain ⟨id, e⟩ := x
    refine .inr ⟨pre, id, e, post, he, (isWanted_iff dir t.exprs name hn e).mp hx, fun q hq => hno _ (hp q hq), ?_⟩
    rw [hmap, hi]
    show (t, t.ptr pre.length) = _
    unfold Tree.ptr
    rw [he, List.getElem?_append_right (Nat.le_refl _), Nat.sub_self]
    rfl

theorem callKind_iff {c : Expr} (hc : IsCall c) (k : Bytes) : callKind c = k ↔ OfKind k c := by
  obtain ⟨_, _, _, _, _, _, _, rfl⟩ := hc
  exact C35_kind ..

theorem exports_iff (name : Bytes) {c : Expr} (hc : IsCall c) : (exports name c = true ∧ callKind c = b!"exports_files") ↔ Exports name c := by
  rw [callKind_iff hc]
  unfold Exports exports
  obtain ⟨c', x, p, l, e, a, b, rfl⟩ := hc
  cases l with
  | nil =>
    constructor
    · rintro ⟨h, _⟩; cases h
    · rintro ⟨_, _, _, _, _, _, _, _, _, h, _⟩; cases h
  | cons y l =>
    constructor
    · rintro ⟨h1, h2⟩; exact ⟨h2, _, _, _, _, _, _, _, _, rfl, h1⟩
    · rintro ⟨h1, _, _, _, _, _, _, _, _, h2, h3⟩; cases h2; exact ⟨h3, h1⟩

theorem rules_filter {t : Tree} (ht : Proper t) (p : Expr → Bool) : t.rules p = (t.rules fun _ => true).filter fun r => p (t.callAt r) := by
  have key : ∀ l : List (Nat × Expr), (∀ q ∈ l, q ∈ t.stmts) →
      (l.flatMap fun q => ((callPaths (size q.2) q.2).filter fun path => p (nodeAt path q.2)).map fun path => Ptr.mk q.1 path) =
      (l.flatMap fun q => ((callPaths (size q.2) q.2).filter fun _ => true).map fun path => Ptr.mk q.1 path).filter fun r => p (t.callAt r) := by
    intro l
    induction l with
    | nil => intro _; rfl
    | cons q l ih =>
      intro hl
      rw [List.flatMap_cons, List.flatMap_cons, List.filter_append, ih (fun q hq => hl q (List.mem_cons_of_mem _ hq)), List.filter_map]
      congr 2
      rw [List.filter_filter]
      refine List.filter_congr fun path _ => ?_
      have : t.callAt ⟨q.1, path⟩ = nodeAt path q.2 := by
        unfold Tree.callAt
        rw [find_id ht.nodup (show (q.1, q.2) ∈ t.stmts from hl q (List.mem_cons_self ..))]
      simp [this]
  exact key t.stmts fun _ h => h

/-- looking for an exported file: the first call of exports_files with it, or there is none -/
theorem findExported_split {t : Tree} (ht : Proper t) (name : Bytes) :
    (t.findExported name = none ∧ ∀ r c, IsRule t r c → ¬ Exports name c) ∨
    ∃ pre r post, t.rules (fun _ => true) = pre ++ r :: post ∧ Exports name (t.callAt r) ∧ (∀ r' ∈ pre, ¬ Exports name (t.callAt r')) ∧
      t.findExported name = some r := by
  have hf : t.findExported name = (t.rules fun _ => true).find? fun r => callKind (t.callAt r) = b!"exports_files" && exports name (t.callAt r) := by
    unfold Tree.findExported Tree.rulesOfKind
    rw [rules_filter ht, List.find?_filter]
    congr 1
    funext r
    cases h1 : exports name (t.callAt r) <;> by_cases h2 : callKind (t.callAt r) = b!"exports_files" <;> simp [h2]
  have hiff : ∀ r ∈ t.rules (fun _ => true), ((callKind (t.callAt r) = b!"exports_files" && exports name (t.callAt r)) = true ↔ Exports name (t.callAt r)) := by
    intro r hr
    obtain ⟨c, hc, _⟩ := (mem_rules _ r).mp hr
    have hcall : IsCall (t.callAt r) := by rw [isRule_callAt ht hc]; exact hc.choose_spec.2.2
    rw [Bool.and_eq_true, decide_eq_true_eq, and_comm]
    exact exports_iff name hcall
  rw [hf]
  rcases find_split (fun r => callKind (t.callAt r) = b!"exports_files" && exports name (t.callAt r)) (t.rules fun _ => true) with ⟨h0, h1⟩ | ⟨pre, r, post, he, hx, hp, hi⟩
  · refine .inl ⟨h0, fun r c hr hex => ?_⟩
    have hm := (mem_rules (fun _ => true) r).mpr ⟨c, hr, rfl⟩
    have := (hiff r hm).mpr (by rw [isRule_callAt ht hr]; exact hex)
    rw [h1 r hm] at this; cases this
  · refine .inr ⟨pre, r, post, he, (hiff r (by rw [he]; simp)).mp hx, fun r' hr' hex => ?_, hi⟩
    have hm : r' ∈ t.rules (fun _ => true) := by rw [he]; simp [hr']
    have := (hiff r' hm).mpr hex
    rw [hp r' hr'] at this; cases this

theorem coversLine_iff (n : Int) (c : Expr) : coversLine n c = true ↔ Covers n c := by
  unfold coversLine Covers
  split
  · rw [Bool.and_eq_true, decide_eq_true_eq, decide_eq_true_eq]
    constructor
    · intro h; exact ⟨_, _, _, _, _, _, _, rfl, h⟩
    · rintro ⟨_, _, _, _, _, _, _, h, h'⟩; cases h; exact h'
  · rename_i hne
    constructor
    · intro h; cases h
    · rintro ⟨_, _, _, _, _, _, _, rfl, _⟩; exact absurd rfl (hne _ _ _ _ _ _ _)

/-- rules covering a line: the only one, or none is found -/
theorem ruleAt_iff {t : Tree} (ht : Proper t) (n : Int) (r : Ptr) :
    t.ruleAt n = some r ↔ ∃ c, IsRule t r c ∧ Covers n c ∧ ∀ r' c', IsRule t r' c' → Covers n c' → r' = r := by
  unfold Tree.ruleAt
  have hm := fun r => mem_rules (t := t) (coversLine n) r
  have hnd := rules_nodup ht (coversLine n)
  generalize t.rules (coversLine n) = l at hm hnd
  constructor
  · intro h
    match l, h with
    | [r0], h =>
      cases h
      obtain ⟨c, h1, h2⟩ := (hm r).mp (by simp)
      refine ⟨c, h1, (coversLine_iff n c).mp h2, fun r' c' h3 h4 => ?_⟩
      have := (hm r').mpr ⟨c', h3, (coversLine_iff n c').mpr h4⟩
      simpa using this
  · rintro ⟨c, h1, h2, h3⟩
    have hr := (hm r).mpr ⟨c, h1, (coversLine_iff n c).mpr h2⟩
    have hall : ∀ r' ∈ l, r' = r := by
      intro r' hr'
      obtain ⟨c', h4, h5⟩ := (hm r').mp hr'
      exact h3 r' c' h4 ((coversLine_iff n c').mp h5)
    match l, hr, hall, hnd with
    | [a], _, hall, _ => rw [hall a (by simp)]
    | a :: b :: l, _, hall, hnd =>
      have e1 := hall a (by simp)
      have e2 := hall b (by simp)
      rw [e1, e2] at hnd
      simp at hnd

theorem sublist_filter {l : List Ptr} {a : List Ptr} (ha : a.Sublist l) : l.Nodup → a = l.filter fun x => decide (x ∈ a) := by
  induction ha with
  | slnil => intro _; rfl
  | @cons l1 l2 x h1 ih =>
    intro hl
    rw [List.nodup_cons] at hl
    have hx : x ∉ l1 := fun hx => hl.1 (h1.subset hx)
    rw [List.filter_cons, if_neg (by simpa using hx)]
    exact ih hl.2
  | @cons_cons l1 l2 x h1 ih =>
    intro hl
    rw [List.nodup_cons] at hl
    rw [List.filter_cons, if_pos (by simp)]
    congr 1
    conv => lhs; rw [ih hl.2]
    refine List.filter_congr fun y hy => ?_
    have hne : y ≠ x := by rintro rfl; exact hl.1 hy
    simp [hne]

theorem sublist_unique {l a b : List Ptr} (hl : l.Nodup) (ha : a.Sublist l) (hb : b.Sublist l) (h : ∀ x, x ∈ a ↔ x ∈ b) : a = b := by
  rw [sublist_filter ha hl, sublist_filter hb hl]
  refine List.filter_congr fun x _ => ?_
  simp [h x]

theorem first_unique {α : Type} {P : α → Prop} {l pre post pre' post' : List α} {x x' : α} (h : l = pre ++ x :: post) (hx : P x) (hp : ∀ y ∈ pre, ¬ P y)
    (h' : l = pre' ++ x' :: post') (hx' : P x') (hp' : ∀ y ∈ pre', ¬ P y) : pre = pre' ∧ x = x' ∧ post = post' := by
  subst h
  induction pre generalizing pre' with
  | nil =>
    cases pre' with
    | nil => cases h'; exact ⟨rfl, rfl, rfl⟩
    | cons z pre' => cases h'; exact absurd hx (hp' _ (List.mem_cons_self ..))
  | cons y pre ih =>
    cases pre' with
    | nil => cases h'; exact absurd hx' (hp _ (List.mem_cons_self ..))
    | cons z pre' =>
      injection h' with e1 e2
      subst e1
      obtain ⟨rfl, h2, h3⟩ := ih (fun w hw => hp w (List.mem_cons_of_mem _ hw)) (fun w hw => hp' w (List.mem_cons_of_mem _ hw)) e2
      exact ⟨rfl, h2, h3⟩

theorem percent_all (s : Bytes) : ¬ ((37 :: s : Bytes) = b!"all" ∨ (37 :: s : Bytes) = b!"*") := by
  rintro (h | h)
  · exact absurd (List.cons.inj h).1 (by decide)
  · exact absurd (List.cons.inj h).1 (by decide)

/-- **C68 (targets).** A target other than `__pkg__` yields exactly the rules it means, and it is an error exactly if it means nothing;
the file is not changed. -/
theorem C68_targets (dir : Option Bytes) {t : Tree} (ht : Proper t) (name : Bytes) (hn : name ≠ b!"__pkg__") :
    (expandTargets dir t name).1 = t ∧ ∀ rs, (expandTargets dir t name).2 = some rs ↔ Means dir t name rs := by
  rcases findRule_split dir t name hn with ⟨h1, h2⟩ | ⟨pre, id, e, post, he, hc, hp, hf⟩
  · rcases findExported_split ht name with ⟨g1, g2⟩ | ⟨pre, r, post, he, hc, hp, hf⟩
    · have hexp : expandTargets dir t name = (if name = b!"all" ∨ name = b!"*" then (t, some (t.rulesOfKind []))
          else if hasPrefix name b!"%" then
            match atoi (name.drop 1) with
            | some n => (t, (t.ruleAt n).map fun p => [p])
            | none => (t, some (t.rulesOfKind (name.drop 1)))
          else (t, none)) := by
        unfold expandTargets
        rw [h1]; dsimp only; rw [g1]; rfl
      rw [hexp]
      have hrk : t.rulesOfKind [] = t.rules fun _ => true := by
        unfold Tree.rulesOfKind; congr 1
      by_cases hall : name = b!"all" ∨ name = b!"*"
      · rw [if_pos hall]
        refine ⟨rfl, fun rs => ?_⟩
        constructor
        · intro h
          cases h
          rw [hrk]
          exact .all h2 g2 hall
        · intro h
          cases h with
          | named pre id e post a b c => exact absurd b (h2 (id, e) (by rw [a]; simp))
          | exported pre r post a b c d =>
            obtain ⟨c', hc', _⟩ := (mem_rules (t := t) (fun _ => true) r).mp (by rw [b]; simp)
            rw [isRule_callAt ht hc'] at c
            exact absurd c (g2 r c' hc')
          | all => rw [hrk]
          | kind k rs a b c => subst c; exact absurd hall (percent_all k)
          | line s n r c a b d => subst d; exact absurd hall (percent_all s)
      · rw [if_neg hall]
        by_cases hpc : hasPrefix name b!"%" = true
        · rw [if_pos hpc]
          obtain ⟨s, rfl⟩ := (prefix_percent name).mp hpc
          rw [List.drop_succ_cons, List.drop_zero]
          have hno : ∀ rs, Means dir t (37 :: s) rs → (∃ k rs', s = k ∧ rs = rs' ∧ (∀ n, ¬ IsNumber k n) ∧ rs'.Sublist (t.rules fun _ => true) ∧
              (∀ r, r ∈ rs' ↔ ∃ c, IsRule t r c ∧ (k = [] ∨ OfKind k c))) ∨ ∃ n r c, rs = [r] ∧ IsNumber s n ∧ IsRule t r c ∧ Covers n c ∧
              (∀ r' c', IsRule t r' c' → Covers n c' → r' = r) := by
            intro rs h
            cases h with
            | named pre id e post a b c => exact absurd b (h2 (id, e) (by rw [a]; simp))
            | exported pre r post a b c d =>
              obtain ⟨c', hc', _⟩ := (mem_rules (t := t) (fun _ => true) r).mp (by rw [b]; simp)
              rw [isRule_callAt ht hc'] at c
              exact absurd c (g2 r c' hc')
            | all a b c => exact absurd c hall
            | kind k rs a b c d f g => cases c; exact .inl ⟨_, _, rfl, rfl, d, f, g⟩
            | line s' n r c a b d f g h k => cases d; exact .inr ⟨n, r, c, rfl, f, g, h, k⟩
          cases ha : atoi s with
          | some n =>
            refine ⟨rfl, fun rs => ?_⟩
            dsimp only
            constructor
            · intro h
              cases hr : t.ruleAt n with
              | none => rw [hr] at h; cases h
              | some r =>
                rw [hr] at h; cases h
                obtain ⟨c, k1, k2, k3⟩ := (ruleAt_iff ht n r).mp hr
                exact .line s n r c h2 g2 rfl ((atoi_iff s n).mp ha) k1 k2 k3
            · intro h
              rcases hno rs h with ⟨k, rs', rfl, rfl, k1, _⟩ | ⟨n', r, c, rfl, k1, k2, k3, k4⟩
              · exact absurd ((atoi_iff s n).mp ha) (k1 n)
              · have := (atoi_iff s n').mpr k1
                rw [ha] at this; cases this
                rw [(ruleAt_iff ht n r).mpr ⟨c, k2, k3, k4⟩]; rfl
          | none =>
            refine ⟨rfl, fun rs => ?_⟩
            dsimp only
            have hnum : ∀ n, ¬ IsNumber s n := by
              intro n hx
              rw [(atoi_iff s n).mpr hx] at ha; cases ha
            have hmem : ∀ r, r ∈ t.rulesOfKind s ↔ ∃ c, IsRule t r c ∧ (s = [] ∨ OfKind s c) := by
              intro r
              unfold Tree.rulesOfKind
              rw [mem_rules]
              refine exists_congr fun c => and_congr_right fun hc => ?_
              rw [Bool.or_eq_true, decide_eq_true_eq, decide_eq_true_eq, callKind_iff hc.choose_spec.2.2]
            have hsub : (t.rulesOfKind s).Sublist (t.rules fun _ => true) := (C68_rules ht _).2.2.1
            constructor
            · intro h; cases h
              exact .kind s _ h2 g2 rfl hnum hsub hmem
            · intro h
              rcases hno rs h with ⟨k, rs', rfl, rfl, _, k2, k3⟩ | ⟨n', r, c, rfl, k1, _⟩
              · rw [sublist_unique (rules_nodup ht _) hsub k2 (fun x => (hmem x).trans (k3 x).symm)]
              · exact absurd k1 (hnum n')
        · rw [if_neg hpc]
          refine ⟨rfl, fun rs => ⟨fun h => (by cases h), fun h => ?_⟩⟩
          cases h with
          | named pre id e post a b c => exact absurd b (h2 (id, e) (by rw [a]; simp))
          | exported pre r post a b c d =>
            obtain ⟨c', hc', _⟩ := (mem_rules (t := t) (fun _ => true) r).mp (by rw [b]; simp)
            rw [isRule_callAt ht hc'] at c
            exact absurd c (g2 r c' hc')
          | all a b c => exact absurd c hall
          | kind k rs a b c => exact absurd ((prefix_percent name).mpr ⟨k, c⟩) hpc
          | line s n r c a b d => exact absurd ((prefix_percent name).mpr ⟨s, d⟩) hpc
    · have hexp : expandTargets dir t name = (t, some [r]) := by
        unfold expandTargets
        rw [h1]; dsimp only; rw [hf]
      rw [hexp]
      refine ⟨rfl, fun rs => ?_⟩
      have hr := (mem_rules (t := t) (fun _ => true) r).mp (by rw [he]; simp)
      obtain ⟨c, hrc, _⟩ := hr
      have hex : Exports name c := by rw [← isRule_callAt ht hrc]; exact hc
      constructor
      · intro h; cases h
        exact .exported pre r post h2 he hc hp
      · intro h
        cases h with
        | named pre id e post a b c => exact absurd b (h2 (id, e) (by rw [a]; simp))
        | exported pre' r' post' a b c d =>
          obtain ⟨_, hrr, _⟩ := first_unique (P := fun r => Exports name (t.callAt r)) he hc hp b c d
          rw [hrr]
        | all a b => exact absurd hex (b r c hrc)
        | kind k rs a b => exact absurd hex (b r c hrc)
        | line s n r' c' a b => exact absurd hex (b r c hrc)
  · have hexp : expandTargets dir t name = (t, some [⟨id, []⟩]) := by
      unfold expandTargets
      rw [hf]
    rw [hexp]
    refine ⟨rfl, fun rs => ?_⟩
    have hmem : (id, e) ∈ t.stmts := by rw [he]; simp
    constructor
    · intro h; cases h
      exact .named pre id e post he hc hp
    · intro h
      cases h with
      | named pre' id' e' post' a b c =>
        obtain ⟨_, hrr, _⟩ := first_unique (P := fun q : Nat × Expr => Called dir t.exprs name q.2) he hc hp a b c
        cases hrr; rfl
      | exported pre' r' post' a => exact absurd hc (a _ hmem)
      | all a => exact absurd hc (a _ hmem)
      | kind k rs a => exact absurd hc (a _ hmem)
      | line s n r' c' a => exact absurd hc (a _ hmem)

/-! ### `__pkg__` -/

/-- **C68 (`__pkg__`).** The target means the first package declaration. If there is none, an empty one is added before the first statement
that is no comment, string, load or `workspace()`, and nothing else changes. -/
theorem C68_package (dir : Option Bytes) (t : Tree) :
    (∃ pre id e post, t.stmts = pre ++ (id, e) :: post ∧ CallOf b!"package" e ∧ (∀ q ∈ pre, ¬ CallOf b!"package" q.2) ∧
      expandTargets dir t b!"__pkg__" = (t, some [⟨id, []⟩])) ∨
    ((∀ q ∈ t.stmts, ¬ CallOf b!"package" q.2) ∧ ∃ pre post, t.stmts = pre ++ post ∧ (∀ q ∈ pre, BeforePackage q.2) ∧
      (∀ q, post.head? = some q → ¬ BeforePackage q.2) ∧
      expandTargets dir t b!"__pkg__" =
        (⟨pre ++ (t.next, .call {} (.ident { name := b!"package" }) {} [] {} false false) :: post, t.next + 1⟩, some [⟨t.next, []⟩])) := by
  have hexp : expandTargets dir t b!"__pkg__" = ((t.package).1, some [(t.package).2]) := by
    unfold expandTargets Tree.findRule
    rw [if_pos rfl]
  rw [hexp]
  unfold Tree.package
  rcases existing_spec t.exprs with ⟨h0, hnp⟩ | ⟨a, x, b, hs, hx, ha, hi⟩
  · refine .inr ⟨fun q hq => hnp q.2 (List.mem_map.mpr ⟨q, hq, rfl⟩), ?_⟩
    rw [h0]
    obtain ⟨h1, h2, h3⟩ := packagePlace_spec t.exprs
    refine ⟨_, _, (List.take_append_drop (packagePlace t.exprs) t.stmts).symm, ?_, ?_, rfl⟩
    · intro q hq
      refine h2 q.2 ?_
      unfold Tree.exprs
      rw [← List.map_take]
      exact List.mem_map.mpr ⟨q, hq, rfl⟩
    · intro q hq
      refine h3 q.2 ?_
      unfold Tree.exprs
      rw [← List.map_drop, List.head?_map]
      unfold Tree.exprs at hq
      rw [hq]; rfl
  · refine .inl ?_
    rw [hi]
    unfold Tree.exprs at hs
    obtain ⟨pre, rest, h1, h2, h3⟩ := List.map_eq_append_iff.mp hs
    obtain ⟨q, post, rfl, h4, h5⟩ := List.map_eq_cons_iff.mp h3
    refine ⟨pre, q.1, q.2, post, h1, by rw [h4]; exact hx, ?_, ?_⟩
    · intro q' hq'
      exact ha _ (by rw [← h2]; exact List.mem_map.mpr ⟨q', hq', rfl⟩)
    · have : t.ptr a.length = some ⟨q.1, []⟩ := by
        unfold Tree.ptr
        rw [h1, ← h2, List.length_map, List.getElem?_append_right (Nat.le_refl _), Nat.sub_self]
        rfl
      dsimp only
      rw [this]; rfl

/-! ### delete -/

/-- **C68 (delete).** Deleting a statement removes it and nothing else; a rule that is inside a statement is not deleted. -/
theorem C68_delete {t : Tree} (ht : Proper t) (r : Ptr) :
    (r.path ≠ [] → cmdDelete t r = t) ∧
    (∀ pre e post, t.stmts = pre ++ (r.stmt, e) :: post → r.path = [] → (cmdDelete t r).stmts = pre ++ post) ∧ Proper (cmdDelete t r) := by
  refine ⟨fun h => ?_, fun pre e post he hp => ?_, ?_⟩
  · unfold cmdDelete
    have : t.stmts.filter (fun q => !(decide (q.1 = r.stmt) && decide (r.path = []))) = t.stmts := List.filter_eq_self.mpr (by intro q _; simp [h])
    rw [this]
  · unfold cmdDelete
    dsimp only
    have hnd := ht.nodup
    rw [he, List.map_append, List.map_cons, List.nodup_append, List.nodup_cons] at hnd
    rw [he, List.filter_append, List.filter_cons, if_neg (by simp [hp])]
    congr 1
    · refine List.filter_eq_self.mpr fun q hq => ?_
      have : q.1 ≠ r.stmt := hnd.2.2 _ (List.mem_map.mpr ⟨q, hq, rfl⟩) _ (List.mem_cons_self ..)
      simp [this]
    · refine List.filter_eq_self.mpr fun q hq => ?_
      have : q.1 ≠ r.stmt := by
        intro h
        exact hnd.2.1.1 (List.mem_map.mpr ⟨q, hq, h⟩)
      simp [this]
  · refine ⟨?_, fun q hq => ht.fresh q (List.mem_filter.mp hq).1⟩
    exact (List.filter_sublist.map _).nodup ht.nodup

/-! ### new -/

/-- the rule `kind(name = "name")` -/
def IsNew (kind name : Bytes) (e : Expr) : Prop :=
  e = .call {} (.ident { name := kind }) {} [.assign {} (.ident { name := b!"name" }) {} b!"=" false (.string { value := name })] {} false false

/-- the statement is meant by a name in `new kind name before|after rel`: it is called so, or it is a package declaration and the name is `__pkg__` -/
def CalledRel (dir : Option Bytes) (stmts : List Expr) (rel : Bytes) (e : Expr) : Prop :=
  Called dir stmts rel e ∨ (rel = b!"__pkg__" ∧ CallOf b!"package" e)

/-- where a new rule goes if no place is given: directly after the last call of the function `kind`; otherwise at the end, before the
comments that end the file -/
inductive EndPlace (kind : Bytes) : List (Nat × Expr) → List (Nat × Expr) → Prop
  | same (pre q post) : CallOf kind q.2 → (∀ q' ∈ post, ¬ CallOf kind q'.2) → EndPlace kind (pre ++ [q]) post
  | last (pre post) : (∀ q ∈ pre ++ post, ¬ CallOf kind q.2) → (∀ q ∈ post, IsComment q.2) → (∀ q, pre.getLast? = some q → ¬ IsComment q.2) →
      EndPlace kind pre post

/-- where a new rule goes, given the arguments after the name -/
inductive Place (dir : Option Bytes) (t : Tree) (kind : Bytes) : List Bytes → List (Nat × Expr) → List (Nat × Expr) → Prop
  | before (rel more pre q post) : t.stmts = pre ++ q :: post → CalledRel dir t.exprs rel q.2 → (∀ q' ∈ pre, ¬ CalledRel dir t.exprs rel q'.2) →
      Place dir t kind (b!"before" :: rel :: more) pre (q :: post)
  | after (rel more pre q post) : t.stmts = pre ++ q :: post → CalledRel dir t.exprs rel q.2 → (∀ q' ∈ pre, ¬ CalledRel dir t.exprs rel q'.2) →
      Place dir t kind (b!"after" :: rel :: more) (pre ++ [q]) post
  | unknown (op rel more pre post) : (∀ q ∈ t.stmts, ¬ CalledRel dir t.exprs rel q.2) → t.stmts = pre ++ post → EndPlace kind pre post →
      Place dir t kind (op :: rel :: more) pre post
  | none (more pre post) : more.length < 2 → t.stmts = pre ++ post → EndPlace kind pre post → Place dir t kind more pre post

theorem isWanted_rel (dir : Option Bytes) (stmts : List Expr) (name : Bytes) (e : Expr) :
    isWanted (implicitRuleName dir stmts) name e = true ↔ CalledRel dir stmts name e := by
  by_cases hn : name = b!"__pkg__"
  · unfold isWanted CalledRel Called
    split
    · rename_i c x p l e' a b
      simp only [hn, decide_true, Bool.true_and, Bool.or_eq_true, decide_eq_true_eq, true_and]
      rw [ruleName_named dir stmts _ c x p l e' a b, isFunctionCall_iff, or_assoc]
      constructor
      · rintro (h | h | h)
        · exact .inl (.inl h)
        · have : lineOf b!"__pkg__" = -1 := by decide
          rw [this] at h; omega
        · exact .inr h
      · rintro ((h | ⟨_, s, h, _⟩) | h)
        · exact .inl h
        · exact absurd (List.cons.inj h).1 (by decide)
        · exact .inr (.inr h)
    · rename_i hne
      constructor
      · intro h; cases h
      · rintro ((⟨_, _, _, _, _, _, _, rfl, _⟩ | ⟨⟨_, _, _, _, _, _, _, rfl⟩, _⟩) | ⟨_, _, _, _, _, _, _, _, _, rfl⟩)
        · exact absurd rfl (hne _ _ _ _ _ _ _)
        · exact absurd rfl (hne _ _ _ _ _ _ _)
        · exact absurd rfl (hne _ _ _ _ _ _ _)
  · rw [isWanted_iff dir stmts name hn]
    unfold CalledRel
    exact ⟨.inl, fun h => h.elim id (fun h => absurd h.1 hn)⟩

theorem indexOfRule_split (dir : Option Bytes) (t : Tree) (name : Bytes) :
    (indexOfRule dir name t.exprs = none ∧ ∀ q ∈ t.stmts, ¬ CalledRel dir t.exprs name q.2) ∨
    ∃ pre q post, t.stmts = pre ++ q :: post ∧ CalledRel dir t.exprs name q.2 ∧ (∀ q' ∈ pre, ¬ CalledRel dir t.exprs name q'.2) ∧
      indexOfRule dir name t.exprs = some pre.length := by
  unfold indexOfRule
  have hmap : t.exprs.findIdx? (isWanted (implicitRuleName dir t.exprs) name) =
      t.stmts.findIdx? (fun q => isWanted (implicitRuleName dir t.exprs) name q.2) := by
    unfold Tree.exprs; rw [List.findIdx?_map]; rfl
  have hno : ∀ e, isWanted (implicitRuleName dir t.exprs) name e = false → ¬ CalledRel dir t.exprs name e := by
    intro e h hc
    rw [(isWanted_rel dir t.exprs name e).mpr hc] at h; cases h
  rcases findIdx_split (fun q : Nat × Expr => isWanted (implicitRuleName dir t.exprs) name q.2) t.stmts with ⟨h0, h1⟩ | ⟨pre, x, post, he, hx, hp, hi⟩
  · exact .inl ⟨by rw [hmap, h0], fun q hq => hno _ (h1 q hq)⟩
  · exact .inr ⟨pre, x, post, he, (isWanted_rel dir t.exprs name _).mp hx, fun q hq => hno _ (hp q hq), by rw [hmap, hi]⟩

theorem endPlace_spec (kind : Bytes) (t : Tree) :
    EndPlace kind (t.stmts.take (endPlace kind t.exprs)) (t.stmts.drop (endPlace kind t.exprs)) := by
  unfold endPlace
  rcases indexAfterLast_spec kind t.exprs with ⟨h0, hn⟩ | ⟨a, x, b, hs, hx, hb, hi⟩
  · rw [if_pos h0]
    obtain ⟨h1, h2, h3⟩ := beforeComments_spec t.exprs
    refine .last _ _ ?_ ?_ ?_
    · rw [List.take_append_drop]
      intro q hq
      exact hn q.2 (List.mem_map.mpr ⟨q, hq, rfl⟩)
    · intro q hq
      refine h2 q.2 ?_
      unfold Tree.exprs
      rw [← List.map_drop]
      exact List.mem_map.mpr ⟨q, hq, rfl⟩
    · intro q hq
      refine h3 q.2 ?_
      unfold Tree.exprs at hq ⊢
      rw [← List.map_take, List.getLast?_map, hq]; rfl
  · rw [if_neg (by omega), hi]
    unfold Tree.exprs at hs
    obtain ⟨pre, rest, h1, h2, h3⟩ := List.map_eq_append_iff.mp hs
    obtain ⟨q, post, rfl, h4, h5⟩ := List.map_eq_cons_iff.mp h3
    have hlen : a.length + 1 = (pre ++ [q]).length := by rw [← h2]; simp
    have hsp : t.stmts = (pre ++ [q]) ++ post := by rw [h1]; simp
    rw [hlen, hsp, List.take_left, List.drop_left]
    refine .same pre q post (by rw [h4]; exact hx) ?_
    intro q' hq'
    exact hb _ (by rw [← h5]; exact List.mem_map.mpr ⟨q', hq', rfl⟩)

/-- **C68 (new).** If a statement has the name, or the place is given with an unknown word (and the rule it refers to exists), the command
fails and changes nothing. Otherwise exactly one statement is added, the rule `kind(name = "name")`, at the place described by the
arguments. -/
theorem C68_new (dir : Option Bytes) (kind name : Bytes) (more : List Bytes) (t : Tree) (hn : name ≠ b!"__pkg__") :
    (cmdNew dir kind name more t = (t, true) ∧ ((∃ q ∈ t.stmts, Called dir t.exprs name q.2) ∨
      ∃ op rel more', more = op :: rel :: more' ∧ op ≠ b!"before" ∧ op ≠ b!"after" ∧ ∃ q ∈ t.stmts, CalledRel dir t.exprs rel q.2)) ∨
    ((∀ q ∈ t.stmts, ¬ Called dir t.exprs name q.2) ∧ ∃ pre post e, Place dir t kind more pre post ∧ IsNew kind name e ∧
      t.stmts = pre ++ post ∧ cmdNew dir kind name more t = (⟨pre ++ (t.next, e) :: post, t.next + 1⟩, false)) := by
  have hnew : IsNew kind name (newCall kind name) := rfl
  rcases findRule_split dir t name hn with ⟨h1, h2⟩ | ⟨pre, id, e, post, he, hc, hp, hf⟩
  · have hend : ∀ more', insertionIndex dir t more' = some none → cmdNew dir kind name more' t =
        (⟨t.stmts.take (endPlace kind t.exprs) ++ (t.next, newCall kind name) :: t.stmts.drop (endPlace kind t.exprs), t.next + 1⟩, false) := by
      intro more' h
      unfold cmdNew; rw [h]; dsimp only; rw [h1]; rfl
    have hshort : more.length < 2 → insertionIndex dir t more = some none := by
      intro h
      unfold insertionIndex
      split
      · simp at h; omega
      · rfl
    by_cases hlen : more.length < 2
    · exact .inr ⟨h2, _, _, _, .none more _ _ hlen (List.take_append_drop _ _).symm (endPlace_spec kind t), hnew, (List.take_append_drop _ _).symm, hend more (hshort hlen)⟩
    · obtain ⟨op, rel, more, rfl⟩ : ∃ op rel more', more = op :: rel :: more' := by
        cases more with
        | nil => simp at hlen
        | cons a l =>
          cases l with
          | nil => simp at hlen
          | cons b l => exact ⟨a, b, l, rfl⟩
      · rcases indexOfRule_split dir t rel with ⟨g1, g2⟩ | ⟨pre, q, post, he, hc, hp, hi⟩
        · refine .inr ⟨h2, _, _, _, .unknown op rel more _ _ g2 (List.take_append_drop _ _).symm (endPlace_spec kind t), hnew, (List.take_append_drop _ _).symm, hend _ ?_⟩
          unfold insertionIndex; dsimp only; rw [g1]
        · by_cases hb : op = b!"before"
          · subst hb
            refine .inr ⟨h2, pre, q :: post, _, .before rel more pre q post he hc hp, hnew, he, ?_⟩
            have : insertionIndex dir t (b!"before" :: rel :: more) = some (some pre.length) := by
              unfold insertionIndex; dsimp only; rw [hi]; rfl
            unfold cmdNew; rw [this]; dsimp only; rw [h1]
            show (t.insert pre.length (newCall kind name), false) = _
            unfold Tree.insert
            rw [he, List.take_left, List.drop_left]
          · by_cases ha : op = b!"after"
            · subst ha
              have hsp : t.stmts = (pre ++ [q]) ++ post := by rw [he]; simp
              refine .inr ⟨h2, pre ++ [q], post, _, .after rel more pre q post he hc hp, hnew, hsp, ?_⟩
              have : insertionIndex dir t (b!"after" :: rel :: more) = some (some (pre.length + 1)) := by
                unfold insertionIndex; dsimp only; rw [hi]; rfl
              unfold cmdNew; rw [this]; dsimp only; rw [h1]
              show (t.insert (pre.length + 1) (newCall kind name), false) = _
              have hl : pre.length + 1 = (pre ++ [q]).length := by simp
              unfold Tree.insert
              rw [hl, hsp, List.take_left, List.drop_left]
            · refine .inl ⟨?_, .inr ⟨op, rel, more, rfl, hb, ha, q, by rw [he]; simp, hc⟩⟩
              have : insertionIndex dir t (op :: rel :: more) = none := by
                unfold insertionIndex; dsimp only; rw [hi]; dsimp only; rw [if_neg hb, if_neg ha]
              unfold cmdNew; rw [this]
  · refine .inl ⟨?_, .inl ⟨(id, e), by rw [he]; simp, hc⟩⟩
    unfold cmdNew
    split
    · rfl
    · rw [hf]; rfl

theorem named_new {dir : Option Bytes} {stmts : List Expr} {kind name : Bytes} (hn : name ≠ []) {e : Expr} (h : IsNew kind name e) : Named dir stmts name e := by
  rw [h]
  refine ⟨_, _, _, _, _, _, _, rfl, .inl ⟨?_, ?_⟩⟩
  · show explicitName _ ≠ []
    exact hn
  · rfl

/-- **C68 (new).** After `new kind name` the target `name` means the new rule and nothing else. -/
theorem C68_new_found (dir : Option Bytes) (kind name : Bytes) (more : List Bytes) {t : Tree} (ht : Proper t) (hn : name ≠ b!"__pkg__") (hne : name ≠ [])
    (hok : (cmdNew dir kind name more t).2 = false) :
    Proper (cmdNew dir kind name more t).1 ∧ expandTargets dir (cmdNew dir kind name more t).1 name = ((cmdNew dir kind name more t).1, some [⟨t.next, []⟩]) := by
  rcases C68_new dir kind name more t hn with ⟨h, _⟩ | ⟨hno, pre, post, e, _, hnew, hsp, h⟩
  · rw [h] at hok; cases hok
  · rw [h]
    have hP : Proper ⟨pre ++ (t.next, e) :: post, t.next + 1⟩ := by
      have hfr := ht.fresh
      have hnd := ht.nodup
      rw [hsp] at hfr hnd
      rw [List.map_append, List.nodup_append] at hnd
      constructor
      · show ((pre ++ (t.next, e) :: post).map (·.1)).Nodup
        rw [List.map_append, List.map_cons, List.nodup_append, List.nodup_cons]
        refine ⟨hnd.1, ⟨?_, hnd.2.1⟩, ?_⟩
        · intro hm
          obtain ⟨q, hq, hq'⟩ := List.mem_map.mp hm
          have := hfr q (by simp [hq])
          have hq'' : q.1 = t.next := hq'
          omega
        · intro a ha b hb
          rcases List.mem_cons.mp hb with rfl | hb
          · obtain ⟨q, hq, rfl⟩ := List.mem_map.mp ha
            have := hfr q (by simp [hq])
            show q.1 ≠ t.next
            omega
          · exact hnd.2.2 a ha b hb
      · intro q hq
        show q.1 < t.next + 1
        rcases List.mem_append.mp hq with hq | hq
        · have := hfr q (by simp [hq]); omega
        · rcases List.mem_cons.mp hq with rfl | hq
          · exact Nat.lt_succ_self _
          · have := hfr q (by simp [hq]); omega
    refine ⟨hP, ?_⟩
    have hcalled : Called dir (Tree.exprs ⟨pre ++ (t.next, e) :: post, t.next + 1⟩) name e := .inl (named_new hne hnew)
    have hold : ∀ q ∈ pre, ¬ Called dir (Tree.exprs ⟨pre ++ (t.next, e) :: post, t.next + 1⟩) name q.2 := by
      intro q hq hc
      refine hno q (by rw [hsp]; simp [hq]) ?_
      rcases hc with ⟨c, x, p, l, e', a, b, hq2, hc⟩ | hc
      · refine .inl ⟨c, x, p, l, e', a, b, hq2, ?_⟩
        rcases hc with hc | hc | ⟨_, _, hc | hc⟩
        · exact .inl hc
        · exact .inr (.inl hc)
        · -- the new rule has the name of the directory
          exfalso
          rw [hnew] at hc
          exact hc.2.1 _ _ _ _ _ _ _ (List.mem_map.mpr ⟨(t.next, _), List.mem_append_right _ (List.mem_cons_self ..), rfl⟩) rfl
        · exact absurd hc.1 hne
      · exact .inr hc
    have := ((C68_targets dir hP name hn).2 [⟨t.next, []⟩]).mpr (.named pre t.next e post rfl hcalled hold)
    have h1 := (C68_targets dir hP name hn).1
    generalize expandTargets dir _ name = r at this h1
    cases r; cases this; cases h1; rfl

/-! ### Examples -/

def exTree : Tree := ⟨[(0, .call {} (.ident { name := b!"cc_library", namePos := { line := 3 } }) {}
  [.assign {} (.ident { name := b!"name" }) {} b!"=" false (.string { value := b!"a" })] {} false false),
  (1, .assign {} (.ident { name := b!"x" }) {} b!"=" false (.call {} (.ident { name := b!"cc_test", namePos := { line := 7 } }) {} [] {} false false))], 2⟩

/-- a file with two rules, one of them inside an assignment -/
example : Proper exTree ∧ expandTargets none exTree b!"a" = (exTree, some [⟨0, []⟩]) ∧ expandTargets none exTree b!"all" = (exTree, some [⟨0, []⟩, ⟨1, [1]⟩]) ∧
    expandTargets none exTree b!"%cc_test" = (exTree, some [⟨1, [1]⟩]) ∧ expandTargets none exTree b!"%7" = (exTree, some [⟨1, [1]⟩]) ∧
    expandTargets none exTree b!"%3" = (exTree, some [⟨0, []⟩]) ∧ (expandTargets none exTree b!"b").2 = none :=
  ⟨⟨by decide, by intro q hq; simp [exTree] at hq; rcases hq with rfl | rfl <;> decide⟩, rfl, rfl, rfl, rfl, rfl, rfl⟩

end Verif.Props.Targets
