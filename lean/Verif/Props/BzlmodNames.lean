import Verif.Props.Bzlmod
import Verif.Proofs.Strings
import Verif.Proofs.Labels
/-
C45: collecting the names of modules over included files; also `File.Rules`.
-/
namespace Verif.Props.BzlmodNames
open Verif Verif.Syntax Verif.Edit Verif.Walk Verif.Bzlmod
open Verif.Props.Walk (occ)

/-! ### specification -/

/-- a call in the file that is not inside another call -/
def TopCall (stmts : List Expr) (call : Expr) : Prop :=
  ∃ s ∈ stmts, ∃ stk, (stk, call) ∈ occ [] s ∧ isCall call = true ∧ ∀ x ∈ stk, isCall x = false

/-- the file contains the call `include("label")` -/
def Includes (stmts : List Expr) (label : Bytes) : Prop :=
  ∃ c i p s e a b, TopCall stmts (.call c (.ident i) p [.string s] e a b) ∧ i.name = b!"include" ∧ s.value = label

/-- the files that are to be read: the given one and the included ones -/
inductive Reach (reader : Bytes → Option (List Expr)) (root : Bytes) : Bytes → Prop
  | root : Reach reader root root
  | step (f : Bytes) (stmts : List Expr) (label : Bytes) : Reach reader root f → reader f = some stmts → Includes stmts label →
      Reach reader root (includePath label)

/-- the file contains `module` or `bazel_dep` with the name and the apparent name (`repo_name`, by default the name itself) -/
def Declares (stmts : List Expr) (name apparent : Bytes) : Prop :=
  ∃ c x p l e a b, TopCall stmts (.call c x p l e a b) ∧ (kindOf x = b!"module" ∨ kindOf x = b!"bazel_dep") ∧
    name ≠ [] ∧ attrString b!"name" l = name ∧
    ((attrString b!"repo_name" l ≠ [] ∧ apparent = attrString b!"repo_name" l) ∨ (attrString b!"repo_name" l = [] ∧ apparent = name))

/-! ### `Rules` -/

def pick (p : Expr → List Expr → Bool) (q : List Expr × Expr) : Option Expr :=
  match q.2 with
  | .call _ f _ l _ _ _ => if q.1.any isCall then none else if p f l then some q.2 else none
  | _ => none

/-- the calls found in one statement -/
def callsIn (p : Expr → List Expr → Bool) (s : Expr) : List Expr := (occ [] s).filterMap (pick p)

theorem callback_pick (p : Expr → List Expr → Bool) (all : List Expr) (q : List Expr × Expr) :
    rulesCallback p all q.2 q.1 = all ++ (pick p q).toList := by
  obtain ⟨stk, x⟩ := q
  unfold rulesCallback pick
  dsimp only
  cases x
  case call =>
    dsimp only
    split
    · simp
    · split <;> simp
  all_goals simp

theorem rulesWhere_eq (p : Expr → List Expr → Bool) (stmts : List Expr) : rulesWhere p stmts = stmts.flatMap (callsIn p) := by
  have hone : ∀ s (all : List Expr), walk (rulesCallback p) all s = all ++ callsIn p s := by
    intro s all
    rw [Walk.C26_walk_visits_every_node_once]
    unfold callsIn
    generalize occ [] s = o
    induction o generalizing all with
    | nil => simp
    | cons q o ih =>
      rw [List.foldl_cons, callback_pick, ih, List.filterMap_cons]
      cases pick p q <;> simp
  have hall : ∀ (l all : List Expr), l.foldl (fun all stmt => walk (rulesCallback p) all stmt) all = all ++ l.flatMap (callsIn p) := by
    intro l
    induction l with
    | nil => intro all; simp
    | cons s l ih => intro all; rw [List.foldl_cons, hone, ih]; simp
  exact (hall stmts []).trans (List.nil_append _)

theorem mem_rulesWhere (p : Expr → List Expr → Bool) (stmts : List Expr) (x : Expr) :
    x ∈ rulesWhere p stmts ↔ TopCall stmts x ∧ ∃ c f ps l e a b, x = .call c f ps l e a b ∧ p f l = true := by
  rw [rulesWhere_eq, List.mem_flatMap]
  constructor
  · rintro ⟨s, hs, h⟩
    unfold callsIn at h
    rw [List.mem_filterMap] at h
    obtain ⟨⟨stk, y⟩, hq, h⟩ := h
    unfold pick at h
    dsimp only at h
    split at h
    · split at h
      · cases h
      · rename_i hany
        split at h
        · rename_i hp
          cases h
          refine ⟨⟨s, hs, stk, hq, rfl, fun x hx => ?_⟩, _, _, _, _, _, _, _, rfl, hp⟩
          cases hx' : isCall x with
          | false => rfl
          | true => exact absurd (List.any_eq_true.mpr ⟨x, hx, hx'⟩) hany
        · cases h
    · cases h
  · rintro ⟨⟨s, hs, stk, hq, _, hstk⟩, c, f, ps, l, e, a, b, rfl, hp⟩
    refine ⟨s, hs, ?_⟩
    unfold callsIn
    rw [List.mem_filterMap]
    refine ⟨_, hq, ?_⟩
    unfold pick
    dsimp only
    rw [if_neg, if_pos hp]
    intro hany
    obtain ⟨x, hx, hx'⟩ := List.any_eq_true.mp hany
    rw [hstk x hx] at hx'; cases hx'

/-- **C45**: `File.Rules` finds the calls of the kind that are not inside another call, all of them -/
theorem C45_rules (kind : Bytes) (stmts : List Expr) (x : Expr) :
    x ∈ rules kind stmts ↔ TopCall stmts x ∧ ∃ c f p l e a b, x = .call c f p l e a b ∧ (kind = [] ∨ kindOf f = kind) := by
  unfold rules
  rw [mem_rulesWhere]
  simp only [Bool.or_eq_true, decide_eq_true_iff]

/-! ### one file -/

/-- what one rule contributes -/
def oneRule : Expr → List (Bytes × Bytes) × List Bytes
  | .call _ x _ l _ _ _ =>
    if attrString b!"name" l = [] then
      match x, l with
      | .ident i, [.string s] => if i.name ≠ b!"include" then ([], []) else ([], [s.value])
      | _, _ => ([], [])
    else if kindOf x ≠ b!"module" ∧ kindOf x ≠ b!"bazel_dep" then ([], [])
    else if attrString b!"repo_name" l ≠ [] then ([(attrString b!"name" l, attrString b!"repo_name" l)], [])
    else ([(attrString b!"name" l, attrString b!"name" l)], [])
  | _ => ([], [])

theorem collectRule_eq (r : List (Bytes × Bytes) × List Bytes) (x : Expr) :
    collectRule r x = (r.1 ++ (oneRule x).1, r.2 ++ (oneRule x).2) := by
  have h0 : r = (r.1 ++ [], r.2 ++ []) := by simp
  cases x
  case call c x p l e f g =>
    unfold collectRule oneRule
    dsimp only
    by_cases h1 : attrString b!"name" l = []
    · rw [if_pos h1, if_pos h1]
      split
      · dsimp only
        split
        · exact h0
        · simp
      · split
        · simp_all
        · exact h0
    · rw [if_neg h1, if_neg h1]
      split
      · exact h0
      · split <;> simp
  all_goals exact h0

theorem collectOne_eq (stmts : List Expr) :
    collectOne stmts = ((rules [] stmts).flatMap (fun r => (oneRule r).1), (rules [] stmts).flatMap (fun r => (oneRule r).2)) := by
  have hall : ∀ (l : List Expr) r, l.foldl collectRule r =
      (r.1 ++ l.flatMap (fun r => (oneRule r).1), r.2 ++ l.flatMap (fun r => (oneRule r).2)) := by
    intro l
    induction l with
    | nil => intro r; simp
    | cons x l ih => intro r; rw [List.foldl_cons, ih, collectRule_eq]; simp
  exact (hall _ _).trans (by simp)

theorem mem_includes (stmts : List Expr) (label : Bytes) : label ∈ (collectOne stmts).2 ↔ Includes stmts label := by
  rw [collectOne_eq]
  dsimp only
  rw [List.mem_flatMap]
  constructor
  · rintro ⟨r, hr, h⟩
    obtain ⟨htop, c, f, p, l, e, a, b, rfl, _⟩ := (C45_rules [] stmts r).mp hr
    unfold oneRule at h
    dsimp only at h
    split at h
    · split at h
      · split at h
        · cases h
        · rename_i hi
          rw [List.mem_singleton] at h
          exact ⟨c, _, p, _, e, a, b, htop, Classical.not_not.mp hi, h.symm⟩
      · cases h
    · split at h
      · cases h
      · split at h <;> cases h
  · rintro ⟨c, i, p, s, e, a, b, htop, hi, rfl⟩
    refine ⟨_, (C45_rules [] stmts _).mpr ⟨htop, _, _, _, _, _, _, _, rfl, .inl rfl⟩, ?_⟩
    unfold oneRule
    dsimp only
    rw [if_pos (show attrString b!"name" [Expr.string s] = [] from rfl), if_neg (fun h => h hi)]
    exact List.mem_singleton.mpr rfl

theorem mem_names (stmts : List Expr) (name apparent : Bytes) : (name, apparent) ∈ (collectOne stmts).1 ↔ Declares stmts name apparent := by
  rw [collectOne_eq]
  dsimp only
  rw [List.mem_flatMap]
  constructor
  · rintro ⟨r, hr, h⟩
    obtain ⟨htop, c, f, p, l, e, a, b, rfl, _⟩ := (C45_rules [] stmts r).mp hr
    unfold oneRule at h
    dsimp only at h
    split at h
    · split at h
      · split at h <;> cases h
      · cases h
    · rename_i hn
      split at h
      · cases h
      · rename_i hk
        have hk' : kindOf f = b!"module" ∨ kindOf f = b!"bazel_dep" := by
          by_cases h1 : kindOf f = b!"module"
          · exact .inl h1
          · exact .inr (Classical.not_not.mp (fun h2 => hk ⟨h1, h2⟩))
        split at h
        · rename_i hrn
          rw [List.mem_singleton] at h; cases h
          exact ⟨c, f, p, l, e, a, b, htop, hk', hn, rfl, .inl ⟨hrn, rfl⟩⟩
        · rename_i hrn
          rw [List.mem_singleton] at h; cases h
          exact ⟨c, f, p, l, e, a, b, htop, hk', hn, rfl, .inr ⟨Classical.not_not.mp hrn, rfl⟩⟩
  · rintro ⟨c, f, p, l, e, a, b, htop, hk, hn, rfl, hr⟩
    refine ⟨_, (C45_rules [] stmts _).mpr ⟨htop, _, _, _, _, _, _, _, rfl, .inl rfl⟩, ?_⟩
    unfold oneRule
    dsimp only
    rw [if_neg hn, if_neg (fun h => hk.elim h.1 h.2)]
    rcases hr with ⟨h1, rfl⟩ | ⟨h1, rfl⟩
    · rw [if_pos h1]; exact List.mem_singleton.mpr rfl
    · rw [if_neg (fun h => h h1)]; exact List.mem_singleton.mpr rfl

/-- **C45**: the includes and names of one file -/
theorem C45_file (stmts : List Expr) :
    (∀ label, label ∈ (collectOne stmts).2 ↔ Includes stmts label) ∧
    (∀ name apparent, (name, apparent) ∈ (collectOne stmts).1 ↔ Declares stmts name apparent) :=
  ⟨mem_includes stmts, mem_names stmts⟩

/-! ### the loop -/

/-- the invariant of the loop -/
structure Inv (reader : Bytes → Option (List Expr)) (root : Bytes) (s : Collect) : Prop where
  nodup : s.seen.Nodup
  seen : ∀ f ∈ s.seen, Reach reader root f
  queue : ∀ f ∈ s.queue, Reach reader root f
  /-- every include of a file that was read has been read or is in the queue -/
  closed : s.failed = false → (root ∈ s.seen ∨ root ∈ s.queue) ∧
    ∀ f ∈ s.seen, ∃ stmts, reader f = some stmts ∧ ∀ l, Includes stmts l → includePath l ∈ s.seen ∨ includePath l ∈ s.queue
  names : s.failed = false → ∀ n a, (n, a) ∈ s.names ↔ ∃ f ∈ s.seen, ∃ stmts, reader f = some stmts ∧ Declares stmts n a
  missing : s.failed = true → s.queue = [] ∧ ∃ f ∈ s.seen, reader f = none

theorem inv_start (reader : Bytes → Option (List Expr)) (root : Bytes) : Inv reader root { queue := [root] } where
  nodup := List.nodup_nil
  seen := fun _ h => nomatch h
  queue := fun f h => by rw [List.mem_singleton] at h; subst h; exact .root
  closed := fun _ => ⟨.inr (List.mem_singleton.mpr rfl), fun _ h => nomatch h⟩
  names := fun _ n a => ⟨(fun h => nomatch h), fun ⟨_, h, _⟩ => nomatch h⟩
  missing := (fun h => nomatch h)

theorem inv_step {reader : Bytes → Option (List Expr)} {root : Bytes} {s : Collect} (h : Inv reader root s) (hf : s.failed = false) :
    Inv reader root (collectStep reader s) := by
  unfold collectStep
  split
  · exact h
  · rename_i f q hq
    by_cases hs : f ∈ s.seen
    · rw [if_pos hs]
      refine ⟨h.nodup, h.seen, fun g hg => h.queue g (hq ▸ List.mem_cons_of_mem _ hg), fun _ => ?_, h.names, fun h' => ?_⟩
      · obtain ⟨h1, h2⟩ := h.closed hf
        have hmv : ∀ g, g ∈ s.seen ∨ g ∈ s.queue → g ∈ s.seen ∨ g ∈ q := by
          intro g hg
          rcases hg with hg | hg
          · exact .inl hg
          · rw [hq] at hg
            rcases List.mem_cons.mp hg with rfl | hg
            · exact .inl hs
            · exact .inr hg
        refine ⟨hmv _ h1, fun g hg => ?_⟩
        obtain ⟨st, h3, h4⟩ := h2 g hg
        exact ⟨st, h3, fun l hl => hmv _ (h4 l hl)⟩
      · dsimp only at h'; rw [hf] at h'; cases h'
    · rw [if_neg hs]
      have hrf : Reach reader root f := h.queue f (hq ▸ List.mem_cons_self ..)
      have hseen : ∀ g ∈ f :: s.seen, Reach reader root g := by
        intro g hg
        rcases List.mem_cons.mp hg with rfl | hg
        · exact hrf
        · exact h.seen g hg
      have hnd : (f :: s.seen).Nodup := List.nodup_cons.mpr ⟨hs, h.nodup⟩
      cases hr : reader f with
      | none =>
        refine ⟨hnd, hseen, (fun _ h => nomatch h), (fun h => nomatch h), (fun h => nomatch h), fun _ => ⟨rfl, f, List.mem_cons_self .., hr⟩⟩
      | some bf =>
        dsimp only
        refine ⟨hnd, hseen, fun g hg => ?_, fun _ => ?_, fun _ n a => ?_, fun h' => ?_⟩
        · rcases List.mem_append.mp hg with hg | hg
          · exact h.queue g (hq ▸ List.mem_cons_of_mem _ hg)
          · obtain ⟨l, hl, rfl⟩ := List.mem_map.mp hg
            exact .step f bf l hrf hr ((mem_includes bf l).mp hl)
        · obtain ⟨h1, h2⟩ := h.closed hf
          have hmv : ∀ g, g ∈ s.seen ∨ g ∈ s.queue → g ∈ f :: s.seen ∨ g ∈ q ++ (collectOne bf).2.map includePath := by
            intro g hg
            rcases hg with hg | hg
            · exact .inl (List.mem_cons_of_mem _ hg)
            · rw [hq] at hg
              rcases List.mem_cons.mp hg with rfl | hg
              · exact .inl (List.mem_cons_self ..)
              · exact .inr (List.mem_append_left _ hg)
          refine ⟨hmv _ h1, fun g hg => ?_⟩
          rcases List.mem_cons.mp hg with rfl | hg
          · exact ⟨bf, hr, fun l hl => .inr (List.mem_append_right _ (List.mem_map.mpr ⟨l, (mem_includes bf l).mpr hl, rfl⟩))⟩
          · obtain ⟨st, h3, h4⟩ := h2 g hg
            exact ⟨st, h3, fun l hl => hmv _ (h4 l hl)⟩
        · dsimp only
          rw [List.mem_append, h.names hf, mem_names]
          constructor
          · rintro (⟨g, hg, st, h1, h2⟩ | hd)
            · exact ⟨g, List.mem_cons_of_mem _ hg, st, h1, h2⟩
            · exact ⟨f, List.mem_cons_self .., bf, hr, hd⟩
          · rintro ⟨g, hg, st, h1, h2⟩
            rcases List.mem_cons.mp hg with rfl | hg
            · rw [hr] at h1; cases h1; exact .inr h2
            · exact .inl ⟨g, hg, st, h1, h2⟩
        · dsimp only at h'; rw [hf] at h'; cases h'

theorem inv_loop {reader : Bytes → Option (List Expr)} {root : Bytes} (n : Nat) :
    ∀ {s : Collect}, Inv reader root s → Inv reader root (collectLoop reader n s) := by
  induction n with
  | zero => intro s h; exact h
  | succ n ih =>
    intro s h
    unfold collectLoop
    split
    · exact h
    · rename_i hq
      apply ih
      apply inv_step h
      cases hf : s.failed with
      | false => rfl
      | true => exact absurd (h.missing hf).1 hq

theorem loop_stable (reader : Bytes → Option (List Expr)) (n : Nat) (s : Collect) (h : s.queue = []) : collectLoop reader n s = s := by
  cases n with
  | zero => rfl
  | succ n => unfold collectLoop; rw [if_pos h]

/-- If only finitely many files can be reached, the loop ends: by induction on the number of files not yet read and the length of the
queue. -/
theorem loop_ends (reader : Bytes → Option (List Expr)) (root : Bytes) (files : List Bytes) (hfin : ∀ f, Reach reader root f → f ∈ files) :
    ∀ (k m : Nat) (s : Collect), Inv reader root s → (files.filter (· ∉ s.seen)).length = k → s.queue.length = m →
      ∃ n, (collectLoop reader n s).queue = [] := by
  intro k
  induction k using Nat.strongRecOn with
  | _ k ihk =>
    intro m
    induction m with
    | zero => intro s _ _ hm; exact ⟨0, List.length_eq_zero_iff.mp hm⟩
    | succ m ihm =>
      intro s h hk hm
      have hne : s.queue ≠ [] := fun h0 => by rw [h0] at hm; cases hm
      have hf : s.failed = false := by
        cases hf : s.failed with
        | false => rfl
        | true => exact absurd (h.missing hf).1 hne
      have hstep := inv_step h hf
      suffices ∃ n, (collectLoop reader n (collectStep reader s)).queue = [] by
        obtain ⟨n, hn⟩ := this
        refine ⟨n + 1, ?_⟩
        unfold collectLoop
        rw [if_neg hne]; exact hn
      revert hstep
      unfold collectStep
      split
      · rename_i h0; exact absurd h0 hne
      · rename_i f q hq
        by_cases hs : f ∈ s.seen
        · rw [if_pos hs]
          intro hstep
          exact ihm _ hstep hk (by rw [hq] at hm; exact Nat.succ.inj hm)
        · rw [if_neg hs]
          have hlt : (files.filter (· ∉ f :: s.seen)).length < k := by
            rw [← hk]
            have hmem : f ∈ files := hfin f (h.queue f (hq ▸ List.mem_cons_self ..))
            have : files.filter (· ∉ f :: s.seen) = (files.filter (· ∉ s.seen)).filter (· ≠ f) := by
              rw [List.filter_filter]
              apply List.filter_congr
              intro x _
              simp [List.mem_cons, not_or]
            rw [this]
            apply List.length_filter_lt_length_iff_exists.mpr
            exact ⟨f, List.mem_filter.mpr ⟨hmem, by simpa using hs⟩, by simp⟩
          cases hr : reader f with
          | none => intro _; exact ⟨0, rfl⟩
          | some bf =>
            dsimp only
            intro hstep
            exact ihk _ hlt _ _ hstep rfl rfl

/-- **C45**: if finitely many files can be reached through includes (cyclic or not), the traversal ends: from some number of iterations
on, the state no longer changes. Then every file has been read at most once, and only files that can be reached. It fails iff a file
that can be reached does not exist; otherwise all of them have been read, and the names are those declared in these files. -/
theorem C45_traversal (reader : Bytes → Option (List Expr)) (root : Bytes) (files : List Bytes)
    (hfin : ∀ f, Reach reader root f → f ∈ files) :
    ∃ n s, (∀ m, n ≤ m → collectLoop reader m { queue := [root] } = s) ∧ s.queue = [] ∧ s.seen.Nodup ∧
      (∀ f ∈ s.seen, Reach reader root f) ∧
      (s.failed = true ↔ ∃ f, Reach reader root f ∧ reader f = none) ∧
      (s.failed = false → (∀ f, f ∈ s.seen ↔ Reach reader root f) ∧
        ∀ name apparent, (name, apparent) ∈ s.names ↔ ∃ f stmts, Reach reader root f ∧ reader f = some stmts ∧ Declares stmts name apparent) := by
  obtain ⟨n, hn⟩ := loop_ends reader root files hfin _ _ _ (inv_start reader root) rfl rfl
  have hinv := inv_loop n (inv_start reader root)
  have hst : ∀ m, n ≤ m → collectLoop reader m { queue := [root] } = collectLoop reader n { queue := [root] } := by
    have : ∀ n k s, (collectLoop reader n s).queue = [] → collectLoop reader (n + k) s = collectLoop reader n s := by
      intro n k
      induction n with
      | zero => intro s h; rw [Nat.zero_add]; exact loop_stable reader k s h
      | succ n ih =>
        intro s h
        rw [show n + 1 + k = (n + k) + 1 by omega]
        unfold collectLoop at h ⊢
        split
        · rfl
        · rename_i hq; rw [if_neg hq] at h; exact ih _ h
    intro m hm
    obtain ⟨k, rfl⟩ := Nat.exists_eq_add_of_le hm
    exact this n k _ hn
  generalize hsd : collectLoop reader n { queue := [root] } = s at *
  have hall : s.failed = false → ∀ f, Reach reader root f → f ∈ s.seen := by
    intro hf f hr
    obtain ⟨h1, h2⟩ := hinv.closed hf
    rw [hn] at h1 h2
    induction hr with
    | root => rcases h1 with h | h; exact h; cases h
    | step f stmts label _ hrd hinc ih =>
      obtain ⟨st, h3, h4⟩ := h2 f ih
      rw [hrd] at h3; cases h3
      rcases h4 label hinc with h | h
      · exact h
      · cases h
  refine ⟨n, s, hst, hn, hinv.nodup, hinv.seen, ?_, fun hf => ⟨fun f => ⟨hinv.seen f, hall hf f⟩, fun name apparent => ?_⟩⟩
  · constructor
    · intro hf
      obtain ⟨_, f, h1, h2⟩ := hinv.missing hf
      exact ⟨f, hinv.seen f h1, h2⟩
    · rintro ⟨f, h1, h2⟩
      cases hf : s.failed with
      | true => rfl
      | false =>
        obtain ⟨st, h3, _⟩ := (hinv.closed hf).2 f (hall hf f h1)
        rw [h2] at h3; cases h3
  · rw [hinv.names hf]
    constructor
    · rintro ⟨f, h1, st, h2, h3⟩; exact ⟨f, st, hinv.seen f h1, h2, h3⟩
    · rintro ⟨f, st, h1, h2, h3⟩; exact ⟨f, hall hf f h1, st, h2, h3⟩

theorem lookup_mem (names : List (Bytes × Bytes)) (name : Bytes) :
    (∃ a, (name, a) ∈ names ∧ lookupName names name = a) ∨ ((∀ a, (name, a) ∉ names) ∧ lookupName names name = []) := by
  have key : ∀ (l : List (Bytes × Bytes)) (r : Bytes),
      (∃ a, (name, a) ∈ l ∧ l.foldl (fun r b => if b.1 = name then b.2 else r) r = a) ∨
      ((∀ a, (name, a) ∉ l) ∧ l.foldl (fun r b => if b.1 = name then b.2 else r) r = r) := by
    intro l
    induction l with
    | nil => intro r; exact .inr ⟨fun _ h => (nomatch h), rfl⟩
    | cons b l ih =>
      intro r
      rw [List.foldl_cons]
      rcases ih (if b.1 = name then b.2 else r) with ⟨a, h1, h2⟩ | ⟨h1, h2⟩
      · exact .inl ⟨a, List.mem_cons_of_mem _ h1, h2⟩
      · rw [h2]
        by_cases hb : b.1 = name
        · rw [if_pos hb]
          subst hb
          exact .inl ⟨b.2, List.mem_cons_self .., rfl⟩
        · rw [if_neg hb]
          refine .inr ⟨fun a ha => ?_, rfl⟩
          rcases List.mem_cons.mp ha with rfl | ha
          · exact hb rfl
          · exact h1 a ha
  exact key names []

/-- **C45**: the mapping returned by `ExtractModuleToApparentNameMapping`: the apparent name of a module is one declared in a file that
can be reached, or "" if there is none or if a file is missing. -/
theorem C45_mapping (reader : Bytes → Option (List Expr)) (root : Bytes) (files : List Bytes)
    (hfin : ∀ f, Reach reader root f → f ∈ files) :
    ∃ n, ∀ m, n ≤ m → ∀ name,
      ((∃ f, Reach reader root f ∧ reader f = none) ∧ apparentName (collectLoop reader m { queue := [root] }) name = []) ∨
      ((∃ f stmts a, Reach reader root f ∧ reader f = some stmts ∧ Declares stmts name a ∧
        apparentName (collectLoop reader m { queue := [root] }) name = a)) ∨
      ((∀ f stmts a, Reach reader root f → reader f = some stmts → ¬ Declares stmts name a) ∧
        apparentName (collectLoop reader m { queue := [root] }) name = []) := by
  obtain ⟨n, s, hst, _, _, _, hfail, hok⟩ := C45_traversal reader root files hfin
  refine ⟨n, fun m hm name => ?_⟩
  rw [hst m hm]
  unfold apparentName
  cases hf : s.failed with
  | true => exact .inl ⟨hfail.mp hf, rfl⟩
  | false =>
    right
    obtain ⟨_, h2⟩ := hok hf
    rw [if_neg (by decide)]
    rcases lookup_mem s.names name with ⟨a, h3, h4⟩ | ⟨h3, h4⟩
    · obtain ⟨f, st, h5, h6, h7⟩ := (h2 name a).mp h3
      exact .inl ⟨f, st, a, h5, h6, h7, h4⟩
    · exact .inr ⟨fun f st a h5 h6 h7 => h3 a ((h2 name a).mpr ⟨f, st, h5, h6, h7⟩), h4⟩

/-! ### the path of an included file -/

/-- an ordinary element of a path -/
def Elem (c : Bytes) : Prop := c ≠ [] ∧ c!"/" ∉ c ∧ c ≠ b!"." ∧ c ≠ b!".."

theorem cleanStack_elems (r : Bool) (l : List Bytes) (h : ∀ c ∈ l, Elem c) : ∀ stk, cleanStack r stk l = l.reverse ++ stk := by
  induction l with
  | nil => intro stk; rfl
  | cons c l ih =>
    intro stk
    have hc := h c (List.mem_cons_self ..)
    unfold cleanStack
    rw [if_neg (fun h => h.elim hc.1 hc.2.2.1), if_neg hc.2.2.2, ih (fun x hx => h x (List.mem_cons_of_mem _ hx))]
    simp

theorem joinWith_ne (l : List Bytes) (hne : l ≠ []) (h : ∀ c ∈ l, Elem c) : ∃ x xs, joinWith c!"/" l = x :: xs ∧ x ≠ c!"/" := by
  cases l with
  | nil => exact absurd rfl hne
  | cons c l =>
    have hc := h c (List.mem_cons_self ..)
    obtain ⟨x, xs, rfl⟩ : ∃ x xs, c = x :: xs := by
      cases c with
      | nil => exact absurd rfl hc.1
      | cons x xs => exact ⟨x, xs, rfl⟩
    have hx : x ≠ c!"/" := fun e => hc.2.1 (e ▸ List.mem_cons_self ..)
    cases l with
    | nil => exact ⟨x, xs, rfl, hx⟩
    | cons d l => exact ⟨x, _, rfl, hx⟩

theorem pathClean_elems (l : List Bytes) (hne : l ≠ []) (h : ∀ c ∈ l, Elem c) : pathClean (joinWith c!"/" l) = joinWith c!"/" l := by
  obtain ⟨x, xs, hj, hx⟩ := joinWith_ne l hne h
  unfold pathClean
  dsimp only
  rw [splitAll_joinWith c!"/" l hne (fun w hw => (h w hw).2.1), cleanStack_elems _ l h, List.append_nil, List.reverse_reverse, hj]
  have : hasPrefix (x :: xs) b!"/" = false := by
    unfold hasPrefix
    simp [List.isPrefixOf]
    exact fun e => hx e.symm
  rw [this, if_neg (by decide), if_neg (by simp)]

theorem joinWith_append (a b : List Bytes) (ha : a ≠ []) (hb : b ≠ []) :
    joinWith c!"/" (a ++ b) = joinWith c!"/" a ++ c!"/" :: joinWith c!"/" b := by
  induction a with
  | nil => exact absurd rfl ha
  | cons x a ih =>
    cases a with
    | nil =>
      cases b with
      | nil => exact absurd rfl hb
      | cons y b => rfl
    | cons z a =>
      have := ih (by simp)
      simp only [List.cons_append] at this ⊢
      have e1 : joinWith c!"/" (x :: z :: (a ++ b)) = x ++ c!"/" :: joinWith c!"/" (z :: (a ++ b)) := rfl
      have e2 : joinWith c!"/" (x :: z :: a) = x ++ c!"/" :: joinWith c!"/" (z :: a) := rfl
      rw [e1, e2, this]; simp

/-- **C45**: the label `//a/b:c/d` is the file `a/b/c/d`, and `//:c/d` is `c/d` -/
theorem C45_path (pkg target : List Bytes) (hp : ∀ c ∈ pkg, Elem c) (ht : ∀ c ∈ target, Elem c) (hne : target ≠ [])
    (hcolon : ∀ c ∈ pkg, c!":" ∉ c) :
    includePath (b!"//" ++ joinWith c!"/" pkg ++ b!":" ++ joinWith c!"/" target) = joinWith c!"/" (pkg ++ target) := by
  obtain ⟨x, xs, hj, hx⟩ := joinWith_ne target hne ht
  have hnc : c!":" ∉ b!"//" ++ joinWith c!"/" pkg := by
    rw [List.mem_append, not_or]
    refine ⟨by decide, ?_⟩
    clear hp
    induction pkg with
    | nil => simp [joinWith]
    | cons a pkg ih =>
      have ha := hcolon a (List.mem_cons_self ..)
      have ih' := ih (fun c hc => hcolon c (List.mem_cons_of_mem _ hc))
      cases pkg with
      | nil => exact ha
      | cons b pkg =>
        rw [joinWith]
        simp only [List.mem_append, List.mem_cons, not_or]
        exact ⟨ha, by decide, ih'⟩
        simp
  have hparse : Labels.parse (b!"//" ++ joinWith c!"/" pkg ++ b!":" ++ joinWith c!"/" target) = ⟨[], joinWith c!"/" pkg, joinWith c!"/" target⟩ := by
    unfold Labels.parse
    rw [if_neg (by unfold hasPrefix; simp [List.isPrefixOf])]
    unfold Labels.parseNoRepo
    dsimp only
    rw [show b!"//" ++ joinWith c!"/" pkg ++ b!":" ++ joinWith c!"/" target = (b!"//" ++ joinWith c!"/" pkg) ++ c!":" :: joinWith c!"/" target by simp,
      Labels.split2_some _ _ _ hnc]
    dsimp only
    rw [if_pos (by rw [hj]; simp)]
    simp [trimPrefix, List.isPrefixOf]
  unfold includePath
  rw [hparse]
  dsimp only
  unfold pathJoin2
  cases pkg with
  | nil =>
    rw [show joinWith c!"/" ([] : List Bytes) = [] from rfl, if_pos rfl, if_neg (by rw [hj]; simp), List.nil_append]
    exact pathClean_elems target hne ht
  | cons a pkg =>
    obtain ⟨y, ys, hj2, _⟩ := joinWith_ne (a :: pkg) (by simp) hp
    rw [if_neg (by rw [hj2]; simp), if_neg (by rw [hj]; simp), ← joinWith_append _ _ (by simp) hne]
    apply pathClean_elems
    · simp
    · intro c hc
      rcases List.mem_append.mp hc with h | h
      · exact hp c h
      · exact ht c h

/-! #### cases -/

/-- the rules of `path.Clean` for the elements of a path: empty elements and `.` go, and so do `x/..` and, at the root, `..` -/
inductive Simplifies (rooted : Bool) : List Bytes → List Bytes → Prop
  | refl (l) : Simplifies rooted l l
  | drop (a x b l) : (x = [] ∨ x = b!".") → Simplifies rooted (a ++ b) l → Simplifies rooted (a ++ x :: b) l
  | up (a x b l) : x ≠ b!".." → x ≠ [] → x ≠ b!"." → Simplifies rooted (a ++ b) l → Simplifies rooted (a ++ x :: b!".." :: b) l
  | root (b l) : rooted = true → Simplifies rooted b l → Simplifies rooted (b!".." :: b) l

/-- no rule applies: some `..` (none at the root), then ordinary elements -/
def Simple (rooted : Bool) (l : List Bytes) : Prop :=
  ∃ k e, l = List.replicate k b!".." ++ e ∧ (rooted = true → k = 0) ∧ ∀ x ∈ e, x ≠ [] ∧ x ≠ b!"." ∧ x ≠ b!".."

theorem simple_top {rooted : Bool} {stk : List Bytes} (h : Simple rooted stk.reverse) : 
    (∀ t r, stk = t :: r → Simple rooted r.reverse ∧ (t = b!".." → rooted = false) ∧ t ≠ [] ∧ t ≠ b!".") := by
  intro t r hs
  subst hs
  obtain ⟨k, e, he, hk, hx⟩ := h
  rw [List.reverse_cons] at he
  rcases List.eq_nil_or_concat e with rfl | ⟨e', y, rfl⟩
  · cases k with
    | zero => simp at he
    | succ k =>
      rw [List.append_nil, List.replicate_succ'] at he
      obtain ⟨h1, h2⟩ := List.append_inj' he rfl
      cases h2
      refine ⟨⟨k, [], by rw [h1]; simp, fun h => by have := hk h; omega, by simp⟩, fun _ => ?_, by simp, by simp⟩
      cases rooted with
      | false => rfl
      | true => have := hk rfl; omega
  · rw [List.concat_eq_append, ← List.append_assoc] at he
    obtain ⟨h1, h2⟩ := List.append_inj' he rfl
    cases h2
    have hy := hx t (by simp)
    exact ⟨⟨k, e', h1, hk, fun x hx' => hx x (by simp [hx'])⟩, fun h => absurd h hy.2.2, hy.1, hy.2.1⟩

theorem cleanStack_spec (rooted : Bool) : ∀ (l stk : List Bytes), Simple rooted stk.reverse →
    Simplifies rooted (stk.reverse ++ l) (cleanStack rooted stk l).reverse ∧ Simple rooted (cleanStack rooted stk l).reverse
  | [], stk, h => by
    rw [List.append_nil]
    exact ⟨.refl _, h⟩
  | c :: l, stk, h => by
    unfold cleanStack
    split
    next hc =>
      obtain ⟨h1, h2⟩ := cleanStack_spec rooted l stk h
      exact ⟨.drop _ _ _ _ hc h1, h2⟩
    next hc =>
      simp only [not_or] at hc
      split
      next hd =>
        subst hd
        split
        next =>
          cases rooted with
          | true =>
            obtain ⟨h1, h2⟩ := cleanStack_spec true l [] h
            exact ⟨.root _ _ rfl h1, h2⟩
          | false =>
            obtain ⟨h1, h2⟩ := cleanStack_spec false l [b!".."] ⟨1, [], rfl, by simp, by simp⟩
            exact ⟨h1, h2⟩
        next t r =>
          obtain ⟨ht, hr, hn, hdot⟩ := simple_top h t r rfl
          split
          next htd =>
            subst htd
            have hrf := hr rfl
            obtain ⟨h1, h2⟩ := cleanStack_spec rooted l (b!".." :: b!".." :: r) (by
              obtain ⟨k, e, he, hk, hx⟩ := h
              rw [List.reverse_cons] at he
              rcases List.eq_nil_or_concat e with rfl | ⟨e', y, rfl⟩
              · refine ⟨k + 1, [], ?_, (fun h => by rw [hrf] at h; cases h), by simp⟩
                rw [List.reverse_cons, List.reverse_cons, he, List.replicate_succ']
                simp
              · rw [List.concat_eq_append, ← List.append_assoc] at he
                obtain ⟨_, h2⟩ := List.append_inj' he rfl
                cases h2
                exact absurd rfl (hx b!".." (by simp)).2.2)
            exact ⟨by simpa using h1, h2⟩
          next htd =>
            obtain ⟨h1, h2⟩ := cleanStack_spec rooted l r ht
            refine ⟨?_, h2⟩
            rw [List.reverse_cons, List.append_assoc]
            exact .up _ _ _ _ htd hn hdot h1
      next hd =>
        obtain ⟨h1, h2⟩ := cleanStack_spec rooted l (c :: stk) (by
          obtain ⟨k, e, he, hk, hx⟩ := h
          refine ⟨k, e ++ [c], by rw [List.reverse_cons, he]; simp, hk, ?_⟩
          intro x hx'
          rcases List.mem_append.1 hx' with hx' | hx'
          · exact hx x hx'
          · rw [List.mem_singleton.1 hx']
            exact ⟨hc.1, hc.2, hd⟩)
        exact ⟨by simpa using h1, h2⟩

theorem joinWith_nil_iff (l : List Bytes) (h : ∀ x ∈ l, x ≠ []) : joinWith c!"/" l = [] ↔ l = [] := by
  cases l with
  | nil => simp [joinWith]
  | cons a l =>
    have := h a (by simp)
    cases l with
    | nil => simp [joinWith, this]
    | cons b l => simp [joinWith]

/-- **C45**: paths of included files are cleaned: the elements are simplified by the rules until none applies; a path is as much absolute as before, and the
empty one is `.` -/
theorem C45_clean (p : Bytes) :
    ∃ l, Simplifies (hasPrefix p b!"/") (splitAll c!"/" p) l ∧ Simple (hasPrefix p b!"/") l ∧
      ((hasPrefix p b!"/" = true ∧ pathClean p = c!"/" :: joinWith c!"/" l) ∨ (hasPrefix p b!"/" = false ∧ l = [] ∧ pathClean p = b!".") ∨
        (hasPrefix p b!"/" = false ∧ l ≠ [] ∧ pathClean p = joinWith c!"/" l)) := by
  obtain ⟨h1, h2⟩ := cleanStack_spec (hasPrefix p b!"/") (splitAll c!"/" p) [] ⟨0, [], rfl, by simp, by simp⟩
  refine ⟨_, h1, h2, ?_⟩
  have hne : ∀ x ∈ (cleanStack (hasPrefix p b!"/") [] (splitAll c!"/" p)).reverse, x ≠ [] := by
    obtain ⟨k, e, he, _, hx⟩ := h2
    rw [he]
    intro x hx'
    rcases List.mem_append.1 hx' with hx' | hx'
    · rw [(List.mem_replicate.1 hx').2]; simp
    · exact (hx x hx').1
  have hj := joinWith_nil_iff _ hne
  unfold pathClean
  cases hp : hasPrefix p b!"/" with
  | true => exact .inl ⟨rfl, by simp⟩
  | false =>
    rw [hp] at hj
    right
    by_cases hn : (cleanStack false [] (splitAll c!"/" p)).reverse = []
    · left
      refine ⟨rfl, hn, ?_⟩
      simp only [Bool.false_eq_true, if_false]
      rw [if_pos (hj.2 hn)]
    · right
      refine ⟨rfl, hn, ?_⟩
      simp only [Bool.false_eq_true, if_false]
      rw [if_neg (fun h => hn (hj.1 h))]

/-- `a/./b//../c` is `a/c`, `/..` is `/`, `a/..` is `.`, `../a` stays -/
example : pathClean b!"a/./b//../c" = b!"a/c" ∧ pathClean b!"/.." = b!"/" ∧ pathClean b!"a/.." = b!"." ∧ pathClean b!"../a" = b!"../a" := by decide +kernel

def exInclude (l : Bytes) : Expr := .call {} (.ident { name := b!"include" }) {} [.string { value := l }] {} false false
def exDep (n : Bytes) : Expr := .call {} (.ident { name := b!"bazel_dep" }) {}
  [.assign {} (.ident { name := b!"name" }) {} b!"=" false (.string { value := n })] {} false false

/-- two files that include each other -/
def exReader (f : Bytes) : Option (List Expr) :=
  if f = b!"MODULE.bazel" then some [exDep b!"a", exInclude b!"//x:y.bzl"]
  else if f = b!"x/y.bzl" then some [exInclude b!"//:MODULE.bazel", exDep b!"b"] else none

example : (collectLoop exReader 5 { queue := [b!"MODULE.bazel"] }).seen = [b!"x/y.bzl", b!"MODULE.bazel"] := by decide +kernel
example : apparentName (collectLoop exReader 5 { queue := [b!"MODULE.bazel"] }) b!"b" = b!"b" := by decide +kernel

theorem exReader_finite (f : Bytes) (h : Reach exReader b!"MODULE.bazel" f) : f ∈ [b!"MODULE.bazel", b!"x/y.bzl"] := by
  induction h with
  | root => simp
  | step f stmts l _ hr hi ih =>
    have hi' := (mem_includes stmts l).mpr hi
    simp at ih
    rcases ih with rfl | rfl
    · cases hr
      rw [show (collectOne [exDep b!"a", exInclude b!"//x:y.bzl"]).2 = [b!"//x:y.bzl"] by decide +kernel, List.mem_singleton] at hi'
      subst hi'
      decide +kernel
    · rw [show exReader b!"x/y.bzl" = some [exInclude b!"//:MODULE.bazel", exDep b!"b"] from rfl] at hr
      cases hr
      rw [show (collectOne [exInclude b!"//:MODULE.bazel", exDep b!"b"]).2 = [b!"//:MODULE.bazel"] by decide +kernel, List.mem_singleton] at hi'
      subst hi'
      decide +kernel

end Verif.Props.BzlmodNames
