import Verif.Model.Bzlmod
import Verif.Props.Walk
import Verif.Props.Labels
/-
C44: editing `use_repo` calls in MODULE.bazel.
-/
namespace Verif.Props.Bzlmod
open Verif Verif.Syntax Verif.Edit Verif.Walk Verif.Bzlmod

/-! ### specification -/

/-- the argument `"r"` or `key = "r"` -/
inductive Exports : Expr → Bytes → Prop
  | string (s : StringN) : Exports (.string s) s.value
  | keyword (c k p o lb) (s : StringN) : Exports (.assign c k p o lb (.string s)) s.value

/-- the statement `use_repo(proxy, args...)` for one of the proxies -/
inductive UseRepo (ps : List Bytes) : Expr → List Expr → Prop
  | mk (c : Comments) (i q : IdentN) (p : Pos) (args : List Expr) (e : EndN) (a b : Bool) :
    i.name = b!"use_repo" → q.name ∈ ps → UseRepo ps (.call c (.ident i) p (.ident q :: args) e a b) args

/-- a statement of the file uses the repo through one of the proxies -/
def Used (ps : List Bytes) (stmts : List Expr) (r : Bytes) : Prop :=
  ∃ s ∈ stmts, ∃ args, UseRepo ps s args ∧ ∃ a ∈ args, Exports a r

/-- `f(x, l...)` becomes `f(x, l'...)` -/
inductive Rearg : List Expr → List Expr → Expr → Expr → Prop
  | mk (c x p h l l' e a b) : Rearg l l' (.call c x p (h :: l) e a b) (.call c x p (h :: l') e a b)

/-- byte offset of the closing parenthesis of a call -/
inductive EndsAt : Expr → Nat → Prop
  | mk (c x p l) (e : EndN) (a b) : EndsAt (.call c x p l e a b) e.pos.byte

/-! ### proofs -/

theorem useRepo_iff (ps : List Bytes) (s : Expr) : isUseRepo ps s = true ↔ ∃ args, UseRepo ps s args := by
  unfold isUseRepo
  split
  · rename_i c i p q l e a b
    rw [decide_eq_true_iff]
    constructor
    · rintro ⟨h1, h2⟩; exact ⟨l, .mk _ _ _ _ _ _ _ _ h1 h2⟩
    · rintro ⟨args, h⟩; cases h; exact ⟨by assumption, by assumption⟩
  · rename_i hno
    constructor
    · intro h; exact absurd h (by decide)
    · rintro ⟨args, h⟩; cases h; exact absurd rfl (hno _ _ _ _ _ _ _ _)

theorem useRepo_fun {ps : List Bytes} {s : Expr} {a b : List Expr} (h1 : UseRepo ps s a) (h2 : UseRepo ps s b) : a = b := by
  cases h1; cases h2; rfl

theorem getD_of_some {α} {l : List α} {i : Nat} {x d : α} (h : l[i]? = some x) : l.getD i d = x := by
  rw [List.getD_eq_getElem?_getD, h]; rfl

theorem set_self {α} {l : List α} {i : Nat} {x : α} (h : l[i]? = some x) : l.set i x = l := by
  apply List.ext_getElem?
  intro j
  rw [List.getElem?_set]
  by_cases hij : i = j
  · subst hij
    rw [if_pos rfl]
    split
    · exact h.symm
    · rename_i hlt; rw [List.getElem?_eq_none (by omega)]
  · rw [if_neg hij]

theorem mem_useRepos (ps : List Bytes) (stmts : List Expr) (i : Nat) :
    i ∈ useRepos stmts ps ↔ ∃ s args, stmts[i]? = some s ∧ UseRepo ps s args := by
  unfold useRepos
  rw [List.mem_filter, List.mem_range, useRepo_iff]
  constructor
  · rintro ⟨hi, args, h⟩
    have hs : stmts[i]? = some stmts[i] := List.getElem?_eq_getElem hi
    rw [getD_of_some hs] at h
    exact ⟨_, args, hs, h⟩
  · rintro ⟨s, args, hs, h⟩
    have hi : i < stmts.length := by
      rcases Nat.lt_or_ge i stmts.length with h | h
      · exact h
      · rw [List.getElem?_eq_none h] at hs; cases hs
    exact ⟨hi, args, by rw [getD_of_some hs]; exact h⟩

theorem useRepos_sorted (ps : List Bytes) (stmts : List Expr) : (useRepos stmts ps).Pairwise (· < ·) :=
  List.Pairwise.filter _ List.pairwise_lt_range

theorem useRepos_nodup (ps : List Bytes) (stmts : List Expr) : (useRepos stmts ps).Nodup :=
  (useRepos_sorted ps stmts).imp (fun h => Nat.ne_of_lt h)

/-- **C44**: `UseRepos` finds the `use_repo` calls of the proxies, all of them, in the order of the file -/
theorem C44_use_repos (ps : List Bytes) (stmts : List Expr) :
    (∀ i, i ∈ useRepos stmts ps ↔ ∃ s args, stmts[i]? = some s ∧ UseRepo ps s args) ∧ (useRepos stmts ps).Pairwise (· < ·) :=
  ⟨mem_useRepos ps stmts, useRepos_sorted ps stmts⟩

theorem lastLoop (stmts : List Expr) (l : List Nat) (j : Nat) :
    ∃ i, lastUseRepoLoop stmts l (some j) = some i ∧ (i = j ∨ i ∈ l) ∧
      ∀ k, (k = j ∨ k ∈ l) → callEnd (stmts.getD k .nil) ≤ callEnd (stmts.getD i .nil) := by
  induction l generalizing j with
  | nil => exact ⟨j, rfl, .inl rfl, fun k hk => by rcases hk with rfl | h; exact Nat.le_refl _; cases h⟩
  | cons a l ih =>
    unfold lastUseRepoLoop
    by_cases hc : callEnd (stmts.getD a .nil) > callEnd (stmts.getD j .nil)
    · rw [if_pos hc]
      obtain ⟨i, h1, h2, h3⟩ := ih a
      refine ⟨i, h1, .inr (by rcases h2 with rfl | h; exact List.mem_cons_self .. ; exact List.mem_cons_of_mem _ h), ?_⟩
      rintro k (rfl | hk)
      · exact Nat.le_trans (Nat.le_of_lt hc) (h3 a (.inl rfl))
      · exact h3 k (List.mem_cons.mp hk)
    · rw [if_neg hc]
      obtain ⟨i, h1, h2, h3⟩ := ih j
      refine ⟨i, h1, by rcases h2 with h | h; exact .inl h; exact .inr (List.mem_cons_of_mem _ h), ?_⟩
      rintro k (rfl | hk)
      · exact h3 k (.inl rfl)
      · rcases List.mem_cons.mp hk with rfl | hk
        · exact Nat.le_trans (Nat.le_of_not_lt hc) (h3 j (.inl rfl))
        · exact h3 k (.inr hk)

theorem last_spec (stmts : List Expr) (l : List Nat) (h : l ≠ []) :
    ∃ i, getLastUseRepo stmts l = some i ∧ i ∈ l ∧ ∀ k ∈ l, callEnd (stmts.getD k .nil) ≤ callEnd (stmts.getD i .nil) := by
  cases l with
  | nil => exact absurd rfl h
  | cons a l =>
    obtain ⟨i, h1, h2, h3⟩ := lastLoop stmts l a
    exact ⟨i, h1, List.mem_cons.mpr h2, fun k hk => h3 k (List.mem_cons.mp hk)⟩

theorem repo_exports {arg : Expr} {r : Bytes} (h : Exports arg r) : repoFromUseRepoArg arg = r := by
  cases h <;> rfl

theorem exports_repo {arg : Expr} {r : Bytes} (hr : r ≠ []) : repoFromUseRepoArg arg = r ↔ Exports arg r := by
  refine ⟨fun h => ?_, repo_exports⟩
  unfold repoFromUseRepoArg at h
  split at h
  · subst h; exact .string _
  · subst h; exact .keyword ..
  · exact absurd h.symm hr

theorem fold_add (seen : List Bytes) (repos : List Bytes) (c x p l e a b) :
    repos.foldl (fun call repo => if repo ∈ seen then call else setCallArgs (callArgs call ++ [.string { value := repo }]) call)
      (.call c x p l e a b)
    = .call c x p (l ++ (repos.filter (· ∉ seen)).map fun r => .string { value := r }) e a b := by
  induction repos generalizing l with
  | nil => simp
  | cons r repos ih =>
    rw [List.foldl_cons]
    by_cases h : r ∈ seen
    · rw [if_pos h, ih, List.filter_cons_of_neg (by simpa using h)]
    · rw [if_neg h, List.filter_cons_of_pos (by simpa using h)]
      refine (ih (l ++ [.string { value := r }])).trans ?_
      simp

theorem mem_seen (ps : List Bytes) (stmts : List Expr) (calls : List Nat) (r : Bytes) (hr : r ≠ [])
    (hc : ∀ i, i ∈ calls ↔ ∃ s args, stmts[i]? = some s ∧ UseRepo ps s args) :
    r ∈ seenRepos stmts calls ↔ Used ps stmts r := by
  unfold seenRepos
  simp only [List.mem_flatMap, List.mem_map]
  constructor
  · rintro ⟨i, hi, arg, harg, h⟩
    obtain ⟨s, args, hs, hu⟩ := (hc i).mp hi
    rw [getD_of_some hs] at harg
    refine ⟨s, List.mem_of_getElem? hs, args, hu, arg, ?_, (exports_repo hr).mp h⟩
    cases hu; exact harg
  · rintro ⟨s, hs, args, hu, arg, ha, he⟩
    obtain ⟨i, hi⟩ := List.mem_iff_getElem?.mp hs
    refine ⟨i, (hc i).mpr ⟨s, args, hi, hu⟩, arg, ?_, repo_exports he⟩
    rw [getD_of_some hi]
    cases hu; exact ha

theorem endsAt {ps s args} (h : UseRepo ps s args) : EndsAt s (callEnd s) := by cases h; exact .mk ..

open Classical in
/-- **C44**: what `AddRepoUsages` does, exactly: the `use_repo` call that ends last gets the repos that were not used before, in the
order given, as further arguments; nothing else changes. -/
theorem C44_add (ps : List Bytes) (stmts : List Expr) (repos : List Bytes) (hne : ∃ s ∈ stmts, ∃ args, UseRepo ps s args)
    (hr : [] ∉ repos) :
    ∃ i s args s' e, stmts[i]? = some s ∧ UseRepo ps s args ∧ EndsAt s e ∧
      (∀ t ∈ stmts, ∀ args, UseRepo ps t args → ∃ e', EndsAt t e' ∧ e' ≤ e) ∧
      Rearg args (args ++ (repos.filter (fun r => ¬ Used ps stmts r)).map fun r => .string { value := r }) s s' ∧
      addRepoUsages stmts (useRepos stmts ps) repos = some (stmts.set i s') := by
  have hcalls : useRepos stmts ps ≠ [] := by
    obtain ⟨s, hs, args, hu⟩ := hne
    obtain ⟨i, hi⟩ := List.mem_iff_getElem?.mp hs
    exact List.ne_nil_of_mem ((mem_useRepos ps stmts i).mpr ⟨s, args, hi, hu⟩)
  obtain ⟨i, h1, h2, h3⟩ := last_spec stmts _ hcalls
  obtain ⟨s, args, hs, hu⟩ := (mem_useRepos ps stmts i).mp h2
  have hend := endsAt hu
  have hlast : ∀ t ∈ stmts, ∀ args, UseRepo ps t args → ∃ e', EndsAt t e' ∧ e' ≤ callEnd s := by
    intro t ht args' hu'
    obtain ⟨j, hj⟩ := List.mem_iff_getElem?.mp ht
    have := h3 j ((mem_useRepos ps stmts j).mpr ⟨t, args', hj, hu'⟩)
    rw [getD_of_some hj, getD_of_some hs] at this
    exact ⟨_, endsAt hu', this⟩
  have hf : repos.filter (fun r => r ∉ seenRepos stmts (useRepos stmts ps)) = repos.filter (fun r => ¬ Used ps stmts r) := by
    apply List.filter_congr
    intro r hrr
    have : r ≠ [] := fun h => hr (h ▸ hrr)
    simp only [mem_seen ps stmts _ r this (mem_useRepos ps stmts)]
  unfold addRepoUsages
  by_cases hrep : repos = []
  · subst hrep
    rw [if_pos rfl]
    refine ⟨i, s, args, s, _, hs, hu, hend, hlast, ?_, ?_⟩
    · cases hu; simp only [List.filter_nil, List.map_nil, List.append_nil]; exact .mk ..
    · rw [set_self hs]
  · rw [if_neg hrep, h1]
    dsimp only
    rw [getD_of_some hs]
    cases hu with
    | mk c id q p args e a b hi hq =>
      rw [fold_add, hf]
      exact ⟨i, _, args, _, _, hs, .mk _ _ _ _ _ _ _ _ hi hq, hend, hlast, .mk .., rfl⟩

theorem mem_set_iff {α} {l : List α} {i : Nat} {y z : α} (hz : z ∈ l.set i y) : z = y ∨ z ∈ l := by
  rcases List.mem_or_eq_of_mem_set hz with h | h
  · exact .inr h
  · exact .inl h

theorem rearg_useRepo {ps : List Bytes} {s s' : Expr} {args args' : List Expr} (hu : UseRepo ps s args) (hr : Rearg args args' s s') :
    UseRepo ps s' args' := by
  cases hu with
  | mk c i q p args e a b hi hq => cases hr; exact .mk _ _ _ _ _ _ _ _ hi hq

theorem mem_other {α} {l : List α} {i : Nat} {x y z : α} (h : l[i]? = some x) (hz : z ∈ l) : z = x ∨ z ∈ l.set i y := by
  obtain ⟨j, hj⟩ := List.mem_iff_getElem?.mp hz
  by_cases hij : i = j
  · subst hij; rw [h] at hj; cases hj; exact .inl rfl
  · refine .inr (List.mem_of_getElem? (i := j) ?_)
    rw [List.getElem?_set, if_neg hij]; exact hj

/-- **C44**: after adding, the repos used are the ones used before and the given ones -/
theorem C44_add_used (ps : List Bytes) (stmts stmts' : List Expr) (repos : List Bytes) (hne : ∃ s ∈ stmts, ∃ args, UseRepo ps s args)
    (hr : [] ∉ repos) (h : addRepoUsages stmts (useRepos stmts ps) repos = some stmts') (r : Bytes) :
    Used ps stmts' r ↔ Used ps stmts r ∨ r ∈ repos := by
  classical
  obtain ⟨i, s, args, s', e, hs, hu, _, _, hre, heq⟩ := C44_add ps stmts repos hne hr
  rw [h] at heq
  cases heq
  have hu' := rearg_useRepo hu hre
  have hi : i < stmts.length := by
    rcases Nat.lt_or_ge i stmts.length with h | h
    · exact h
    · rw [List.getElem?_eq_none h] at hs; cases hs
  have hs' : s' ∈ stmts.set i s' := List.mem_set hi _
  constructor
  · rintro ⟨t, ht, args', hu2, a, ha, hea⟩
    rcases mem_set_iff ht with rfl | ht
    · cases useRepo_fun hu' hu2
      rcases List.mem_append.mp ha with ha | ha
      · exact .inl ⟨s, List.mem_of_getElem? hs, args, hu, a, ha, hea⟩
      · obtain ⟨r', hr', rfl⟩ := List.mem_map.mp ha
        cases hea
        exact .inr (List.mem_filter.mp hr').1
    · exact .inl ⟨t, ht, args', hu2, a, ha, hea⟩
  · intro hor
    have hold : Used ps stmts r → Used ps (stmts.set i s') r := by
      rintro ⟨t, ht, args', hu2, a, ha, hea⟩
      rcases mem_other (y := s') hs ht with rfl | ht'
      · cases useRepo_fun hu hu2
        exact ⟨s', hs', _, hu', a, List.mem_append_left _ ha, hea⟩
      · exact ⟨t, ht', args', hu2, a, ha, hea⟩
    by_cases hold' : Used ps stmts r
    · exact hold hold'
    · rcases hor with h | h
      · exact hold h
      · refine ⟨s', hs', _, hu', .string { value := r }, List.mem_append_right _ (List.mem_map.mpr ⟨r, ?_, rfl⟩), .string { value := r }⟩
        exact List.mem_filter.mpr ⟨h, by simpa using hold'⟩

theorem removeRepoCall_spec {ps : List Bytes} {s : Expr} {args : List Expr} (repos : List Bytes) (hu : UseRepo ps s args) :
    Rearg args (args.filter fun a => repoFromUseRepoArg a ∉ repos) s (removeRepoCall repos s) := by
  cases hu; exact .mk ..

theorem fold_set (g : Expr → Expr) (calls : List Nat) (hnd : calls.Nodup) (stmts : List Expr) (i : Nat) :
    (calls.foldl (fun stmts i => stmts.set i (g (stmts.getD i .nil))) stmts)[i]?
      = if i ∈ calls then stmts[i]?.map g else stmts[i]? := by
  induction calls generalizing stmts with
  | nil => simp
  | cons c calls ih =>
    rw [List.nodup_cons] at hnd
    rw [List.foldl_cons, ih hnd.2, List.getElem?_set]
    by_cases hic : i = c
    · subst hic
      rw [if_neg hnd.1, if_pos rfl, if_pos (List.mem_cons_self ..)]
      by_cases hlt : i < stmts.length
      · rw [if_pos hlt, List.getElem?_eq_getElem hlt, Option.map_some, getD_of_some (List.getElem?_eq_getElem hlt)]
      · rw [if_neg hlt, List.getElem?_eq_none (by omega)]; rfl
    · rw [if_neg (Ne.symm hic)]
      simp [hic]

open Classical in
/-- **C44**: what `RemoveRepoUsages` does, exactly: from every `use_repo` call of the proxies the arguments that export one of the repos
are removed; all other arguments and all other statements stay. -/
theorem C44_remove (ps : List Bytes) (stmts : List Expr) (repos : List Bytes) (hr : [] ∉ repos) (i : Nat) :
    (∀ s args, stmts[i]? = some s → UseRepo ps s args → ∃ s', (removeRepoUsages stmts (useRepos stmts ps) repos)[i]? = some s' ∧
      Rearg args (args.filter fun a => ¬ ∃ r ∈ repos, Exports a r) s s') ∧
    ((∀ s, stmts[i]? = some s → ∀ args, ¬ UseRepo ps s args) →
      (removeRepoUsages stmts (useRepos stmts ps) repos)[i]? = stmts[i]?) := by
  have hfil : ∀ args : List Expr, args.filter (fun a => repoFromUseRepoArg a ∉ repos) = args.filter fun a => ¬ ∃ r ∈ repos, Exports a r := by
    intro args
    apply List.filter_congr
    intro a _
    have : repoFromUseRepoArg a ∈ repos ↔ ∃ r ∈ repos, Exports a r := by
      constructor
      · intro h
        exact ⟨_, h, (exports_repo (fun h0 => hr (h0 ▸ h))).mp rfl⟩
      · rintro ⟨r, h, he⟩; rw [repo_exports he]; exact h
    simp only [this]
  unfold removeRepoUsages
  by_cases hc : useRepos stmts ps = [] ∨ repos = []
  · rw [if_pos hc]
    refine ⟨fun s args hs hu => ?_, fun _ => rfl⟩
    rcases hc with hc | hc
    · have := (mem_useRepos ps stmts i).mpr ⟨s, args, hs, hu⟩
      rw [hc] at this; cases this
    · subst hc
      refine ⟨s, hs, ?_⟩
      cases hu; rw [← hfil]; rw [List.filter_eq_self.mpr (fun a _ => by simp)]; exact .mk ..
  · rw [if_neg hc, fold_set _ _ (useRepos_nodup ps stmts)]
    constructor
    · intro s args hs hu
      rw [if_pos ((mem_useRepos ps stmts i).mpr ⟨s, args, hs, hu⟩), hs]
      refine ⟨_, rfl, ?_⟩
      rw [← hfil]
      exact removeRepoCall_spec repos hu
    · intro hno
      rw [if_neg]
      intro hm
      obtain ⟨s, args, hs, hu⟩ := (mem_useRepos ps stmts i).mp hm
      exact hno s hs args hu

theorem exports_fun {a : Expr} {r r' : Bytes} (h : Exports a r) (h' : Exports a r') : r = r' := by
  rw [← repo_exports h, ← repo_exports h']

/-- **C44**: after removing, the repos used are the ones used before that are not among the given ones -/
theorem C44_remove_used (ps : List Bytes) (stmts : List Expr) (repos : List Bytes) (hr : [] ∉ repos) (r : Bytes) :
    Used ps (removeRepoUsages stmts (useRepos stmts ps) repos) r ↔ Used ps stmts r ∧ r ∉ repos := by
  classical
  have hback : ∀ i : Nat, stmts[i]? = none → (removeRepoUsages stmts (useRepos stmts ps) repos)[i]? = none := by
    intro i hi
    rw [(C44_remove ps stmts repos hr i).2 (fun s hs => by rw [hi] at hs; cases hs), hi]
  constructor
  · rintro ⟨t, ht, args, hu, a, ha, he⟩
    obtain ⟨i, hi⟩ := List.mem_iff_getElem?.mp ht
    cases hs : stmts[i]? with
    | none => rw [hback i hs] at hi; cases hi
    | some s =>
      by_cases huse : ∃ args, UseRepo ps s args
      · obtain ⟨args0, hu0⟩ := huse
        obtain ⟨s', hs', hre⟩ := (C44_remove ps stmts repos hr i).1 s args0 hs hu0
        rw [hi] at hs'; cases hs'
        cases useRepo_fun hu (rearg_useRepo hu0 hre)
        obtain ⟨h1, h2⟩ := List.mem_filter.mp ha
        refine ⟨⟨s, List.mem_of_getElem? hs, args0, hu0, a, h1, he⟩, fun hm => ?_⟩
        exact (of_decide_eq_true h2) ⟨r, hm, he⟩
      · have := (C44_remove ps stmts repos hr i).2 (fun s' h' args h => by rw [hs] at h'; cases h'; exact huse ⟨args, h⟩)
        rw [hi, hs] at this; cases this
        exact absurd ⟨args, hu⟩ huse
  · rintro ⟨⟨s, hs, args, hu, a, ha, he⟩, hm⟩
    obtain ⟨i, hi⟩ := List.mem_iff_getElem?.mp hs
    obtain ⟨s', hs', hre⟩ := (C44_remove ps stmts repos hr i).1 s args hi hu
    refine ⟨s', List.mem_of_getElem? hs', _, rearg_useRepo hu hre, a, List.mem_filter.mpr ⟨ha, ?_⟩, he⟩
    apply decide_eq_true
    rintro ⟨r', hr', he'⟩
    cases exports_fun he he'
    exact hm hr'

/-! #### proxies -/

/-- the keyword argument is given, with a value other than `False` -/
def Flag (name : Bytes) (args : List Expr) : Prop :=
  ∃ c i p o lb v, Expr.assign c (.ident i) p o lb v ∈ args ∧ i.name = name ∧ ∀ j : IdentN, v = .ident j → j.name ≠ b!"False"

/-- the statement `proxy = use_extension("bzl", "name", args...)` -/
inductive UseExtension : Expr → Bytes → Bytes → Bytes → List Expr → Prop
  | mk (c : Comments) (q f : IdentN) (p : Pos) (o : Bytes) (lb : Bool) (c' : Comments) (p' : Pos) (b n : StringN) (args : List Expr)
      (e : EndN) (a a' : Bool) : f.name = b!"use_extension" →
    UseExtension (.assign c (.ident q) p o lb (.call c' (.ident f) p' (.string b :: .string n :: args) e a a')) q.name b.value n.value args

theorem flag_iff (name : Bytes) (args : List Expr) : args.any (parseBooleanKeywordArg name) = true ↔ Flag name args := by
  rw [List.any_eq_true]
  constructor
  · rintro ⟨a, ha, h⟩
    unfold parseBooleanKeywordArg at h
    split at h
    · rename_i c i p o lb v
      obtain ⟨h1, h2⟩ := of_decide_eq_true h
      exact ⟨c, i, p, o, lb, .ident v, ha, h1, fun j hj => by cases hj; exact h2⟩
    · rename_i c i p o lb v hno
      exact ⟨c, i, p, o, lb, v, ha, of_decide_eq_true h, fun j hj => absurd hj (hno j)⟩
    · cases h
  · rintro ⟨c, i, p, o, lb, v, ha, h1, h2⟩
    refine ⟨_, ha, ?_⟩
    unfold parseBooleanKeywordArg
    split
    · rename_i hj; cases hj; exact decide_eq_true ⟨h1, h2 _ rfl⟩
    · rename_i hj; cases hj; exact decide_eq_true h1
    · rename_i hno; exact (hno _ _ _ _ _ _ rfl).elim

/-- `parseUseExtension` -/
theorem parse_spec (s : Expr) :
    (∃ q b n args, UseExtension s q b n args ∧ (parseUseExtension s).proxy = q ∧ (parseUseExtension s).bzl = b ∧
      (parseUseExtension s).name = n ∧ ((parseUseExtension s).dev = true ↔ Flag b!"dev_dependency" args) ∧
      ((parseUseExtension s).isolate = true ↔ Flag b!"isolate" args)) ∨
    ((∀ q b n args, ¬ UseExtension s q b n args) ∧ parseUseExtension s = {}) := by
  by_cases hu : ∃ q b n args, UseExtension s q b n args
  · left
    obtain ⟨q, b, n, args, hu⟩ := hu
    refine ⟨q, b, n, args, hu, ?_⟩
    cases hu with
    | mk _ _ _ _ _ _ _ _ _ _ _ _ _ _ hf =>
      simp only [parseUseExtension]
      rw [if_neg (fun h => h hf)]
      exact ⟨rfl, rfl, rfl, flag_iff .., flag_iff ..⟩
  · right
    refine ⟨fun q b n args h => hu ⟨q, b, n, args, h⟩, ?_⟩
    unfold parseUseExtension
    split
    · split
      · rfl
      · rename_i hf
        exact absurd ⟨_, _, _, _, .mk _ _ _ _ _ _ _ _ _ _ _ _ _ _ (Classical.not_not.mp hf)⟩ hu
    · rfl

theorem useExtension_fun {s : Expr} {q b n q' b' n' : Bytes} {args args' : List Expr} (h : UseExtension s q b n args)
    (h' : UseExtension s q' b' n' args') : q = q' ∧ b = b' ∧ n = n' ∧ args = args' := by
  cases h; cases h'; exact ⟨rfl, rfl, rfl, rfl⟩

/-- the statement creates the (non-empty) proxy for the extension: the labels of the file are the same after filling in the name of the
module itself, the extension is not isolated, and its `dev_dependency` is the given one -/
def Creates (stmts : List Expr) (s : Expr) (q bzl name : Bytes) (dev : Bool) : Prop :=
  ∃ b args, UseExtension s q b name args ∧ q ≠ [] ∧ ¬ Flag b!"isolate" args ∧ (dev = true ↔ Flag b!"dev_dependency" args) ∧
    normalizeLabelString b (getApparentModuleName stmts) = normalizeLabelString bzl (getApparentModuleName stmts)

/-- **C44**: `Proxies` returns the proxies of the extension -/
theorem C44_proxies (stmts : List Expr) (bzl name : Bytes) (dev : Bool) (q : Bytes) :
    q ∈ proxies stmts bzl name dev ↔ ∃ s ∈ stmts, Creates stmts s q bzl name dev := by
  unfold proxies
  dsimp only
  rw [List.mem_filterMap]
  apply exists_congr
  intro s
  apply and_congr_right
  intro _
  rcases parse_spec s with ⟨q', b, n, args, hu, h1, h2, h3, h4, h5⟩ | ⟨hno, he⟩
  · rw [h1, h2, h3]
    constructor
    · intro h
      split at h
      · cases h
      · rename_i hc
        split at h
        · rename_i heq
          cases h
          rw [not_or, not_or] at hc
          refine ⟨b, args, heq.2 ▸ hu, hc.1, fun hf => hc.2.2 (h5.mpr hf), ?_, heq.1⟩
          rw [← h4, Classical.not_not.mp hc.2.1]
        · cases h
    · rintro ⟨b', args', hu', hq, hi, hd, heq⟩
      obtain ⟨rfl, rfl, rfl, rfl⟩ := useExtension_fun hu hu'
      rw [if_neg, if_pos ⟨heq, rfl⟩]
      rintro (h | h | h)
      · exact hq h
      · exact h (Bool.eq_iff_iff.mpr (h4.trans hd.symm))
      · exact hi (h5.mp h)
  · rw [he]
    constructor
    · intro h; rw [if_pos (.inl rfl)] at h; cases h
    · rintro ⟨b', args', hu', _⟩; exact absurd hu' (hno _ _ _ _)

/-- **C44**: `AllProxies` of a proxy: for the first statement that creates it, the proxy alone if the extension is isolated, otherwise all
the proxies of the same extension; nothing if there is no such statement -/
theorem C44_all_proxies (stmts : List Expr) (q : Bytes) (hq : q ≠ []) :
    (∃ pre s post b n args, stmts = pre ++ s :: post ∧ (∀ t ∈ pre, ∀ b n args, ¬ UseExtension t q b n args) ∧ UseExtension s q b n args ∧
      (Flag b!"isolate" args → allProxies stmts q = [q]) ∧
      (¬ Flag b!"isolate" args → ∃ dev, (dev = true ↔ Flag b!"dev_dependency" args) ∧ q ∈ allProxies stmts q ∧
        allProxies stmts q = proxies stmts b n dev)) ∨
    ((∀ s ∈ stmts, ∀ b n args, ¬ UseExtension s q b n args) ∧ allProxies stmts q = []) := by
  have key : ∀ l pre, stmts = pre ++ l → (∀ t ∈ pre, ∀ b n args, ¬ UseExtension t q b n args) →
      (∃ pre s post b n args, stmts = pre ++ s :: post ∧ (∀ t ∈ pre, ∀ b n args, ¬ UseExtension t q b n args) ∧ UseExtension s q b n args ∧
        (Flag b!"isolate" args → allProxiesLoop stmts q l = [q]) ∧
        (¬ Flag b!"isolate" args → ∃ dev, (dev = true ↔ Flag b!"dev_dependency" args) ∧ q ∈ allProxiesLoop stmts q l ∧
          allProxiesLoop stmts q l = proxies stmts b n dev)) ∨
      ((∀ s ∈ stmts, ∀ b n args, ¬ UseExtension s q b n args) ∧ allProxiesLoop stmts q l = []) := by
    intro l
    induction l with
    | nil => intro pre h hpre; rw [List.append_nil] at h; subst h; exact .inr ⟨hpre, rfl⟩
    | cons s l ih =>
      intro pre h hpre
      unfold allProxiesLoop
      dsimp only
      rcases parse_spec s with ⟨q', b, n, args, hu, h1, h2, h3, h4, h5⟩ | ⟨hno, he⟩
      · rw [h1, h2, h3]
        by_cases hqq : q' = q
        · subst hqq
          rw [if_pos rfl]
          left
          refine ⟨pre, s, l, b, n, args, h, hpre, hu, fun hf => ?_, fun hf => ?_⟩
          · rw [if_pos (h5.mpr hf)]
          · have hni : ¬ (parseUseExtension s).isolate = true := fun h => hf (h5.mp h)
            rw [if_neg hni]
            refine ⟨_, h4, ?_, rfl⟩
            rw [C44_proxies]
            exact ⟨s, by rw [h]; simp, b, args, hu, hq, hf, h4, rfl⟩
        · rw [if_neg hqq]
          apply ih (pre ++ [s]) (by rw [h]; simp)
          intro t ht
          rcases List.mem_append.mp ht with ht | ht
          · exact hpre t ht
          · rw [List.mem_singleton] at ht; subst ht
            intro b' n' args' hu'
            exact hqq (useExtension_fun hu hu').1
      · rw [he]
        rw [if_neg (fun h => hq h.symm)]
        apply ih (pre ++ [s]) (by rw [h]; simp)
        intro t ht
        rcases List.mem_append.mp ht with ht | ht
        · exact hpre t ht
        · rw [List.mem_singleton] at ht; subst ht
          exact fun b n args => hno q b n args
  exact key stmts [] rfl (fun t h => nomatch h)

/-! #### a new call -/

/-- the statement creates the proxy or is a tag `proxy.tag(...)` -/
def UsesProxy (s : Expr) (q : Bytes) : Prop :=
  q ≠ [] ∧ ((∃ b n args, UseExtension s q b n args) ∨
    ∃ c c' i dp np n p l e a b, s = .call c (.dot c' (.ident i) dp np n) p l e a b ∧ i.name = q)

theorem usedProxy_spec (ps : List Bytes) (s : Expr) :
    (∀ q, usedProxy ps s = some q → q ∈ ps ∧ UsesProxy s q) ∧ (usedProxy ps s = none → ∀ q ∈ ps, ¬ UsesProxy s q) := by
  have htag : ∀ q, q ≠ [] → (parseTag s = q ↔ ∃ c c' i dp np n p l e a b, s = .call c (.dot c' (.ident i) dp np n) p l e a b ∧ i.name = q) := by
    intro q hq
    constructor
    · intro h
      unfold parseTag at h
      split at h
      · exact ⟨_, _, _, _, _, _, _, _, _, _, _, rfl, h⟩
      · exact absurd h.symm hq
    · rintro ⟨c, c', i, dp, np, n, p, l, e, a, b, rfl, rfl⟩; rfl
  have hext : ∀ q, q ≠ [] → ((parseUseExtension s).proxy = q ↔ ∃ b n args, UseExtension s q b n args) := by
    intro q hq
    rcases parse_spec s with ⟨q', b, n, args, hu, h1, _⟩ | ⟨hno, he⟩
    · rw [h1]
      exact ⟨fun h => ⟨b, n, args, h ▸ hu⟩, fun ⟨_, _, _, hu'⟩ => (useExtension_fun hu hu').1⟩
    · rw [he]
      exact ⟨fun h => absurd h.symm hq, fun ⟨_, _, _, h⟩ => absurd h (hno _ _ _ _)⟩
  unfold usedProxy
  constructor
  · intro q h
    split at h
    · rename_i hc
      cases h
      exact ⟨hc.2, hc.1, .inl ((hext _ hc.1).mp rfl)⟩
    · split at h
      · rename_i hc
        cases h
        exact ⟨hc.2, hc.1, .inr ((htag _ hc.1).mp rfl)⟩
      · cases h
  · intro h q hq hu
    split at h
    · cases h
    · rename_i h1
      split at h
      · cases h
      · rename_i h2
        rcases hu.2 with hu' | hu'
        · have := (hext q hu.1).mpr hu'
          exact h1 ⟨this ▸ hu.1, this ▸ hq⟩
        · have := (htag q hu.1).mpr hu'
          exact h2 ⟨this ▸ hu.1, this ▸ hq⟩

theorem lastProxyUsage_spec (ps : List Bytes) (stmts : List Expr) :
    ((lastProxyUsage ps stmts).1 = 0 ∧ ∀ s ∈ stmts, ∀ q ∈ ps, ¬ UsesProxy s q) ∨
    ∃ pre s post q, stmts = pre ++ s :: post ∧ lastProxyUsage ps stmts = (pre.length + 1, q) ∧ q ∈ ps ∧ UsesProxy s q ∧
      ∀ t ∈ post, ∀ q ∈ ps, ¬ UsesProxy t q := by
  induction stmts with
  | nil => exact .inl ⟨rfl, fun s h => nomatch h⟩
  | cons s l ih =>
    unfold lastProxyUsage
    dsimp only
    rcases ih with ⟨h0, hno⟩ | ⟨pre, t, post, q, rfl, h2, hq, hu, hpost⟩
    · rw [if_neg (fun h => h h0)]
      cases hs : usedProxy ps s with
      | none =>
        refine .inl ⟨rfl, fun t ht => ?_⟩
        rcases List.mem_cons.mp ht with rfl | ht
        · exact (usedProxy_spec ps t).2 hs
        · exact hno t ht
      | some q =>
        obtain ⟨hq, hu⟩ := (usedProxy_spec ps s).1 q hs
        exact .inr ⟨[], s, l, q, rfl, rfl, hq, hu, hno⟩
    · rw [h2]
      rw [if_pos (Nat.succ_ne_zero _)]
      exact .inr ⟨s :: pre, t, post, q, rfl, rfl, hq, hu, hpost⟩

/-- **C44**: `NewUseRepo` puts a call `use_repo(proxy)` of one of the proxies right after the last statement that uses one of them; it
fails only if there is no such statement -/
theorem C44_new (ps : List Bytes) (stmts : List Expr) :
    (newUseRepo stmts ps = (stmts, none) ∧ ∀ s ∈ stmts, ∀ q ∈ ps, ¬ UsesProxy s q) ∨
    ∃ pre s post q, stmts = pre ++ s :: post ∧ q ∈ ps ∧ UsesProxy s q ∧ (∀ t ∈ post, ∀ q ∈ ps, ¬ UsesProxy t q) ∧
      newUseRepo stmts ps = (pre ++ s :: .call {} (.ident { name := b!"use_repo" }) {} [.ident { name := q }] {} false false :: post,
        some (pre.length + 1)) := by
  unfold newUseRepo
  rcases lastProxyUsage_spec ps stmts with ⟨h0, hno⟩ | ⟨pre, s, post, q, rfl, h2, hq, hu, hpost⟩
  · refine .inl ⟨?_, hno⟩
    dsimp only
    rw [if_pos h0]
  · refine .inr ⟨pre, s, post, q, rfl, hq, hu, hpost, ?_⟩
    rw [h2]
    dsimp only
    rw [if_neg (Nat.succ_ne_zero _)]
    have h1 : (pre ++ s :: post).take (pre.length + 1) = pre ++ [s] := by
      rw [show pre ++ s :: post = (pre ++ [s]) ++ post by simp, List.take_left' (by simp)]
    have h2 : (pre ++ s :: post).drop (pre.length + 1) = post := by
      rw [show pre ++ s :: post = (pre ++ [s]) ++ post by simp, List.drop_left' (by simp)]
    rw [h1, h2]; simp

/-! #### the command -/

theorem useRepos_new {ps : List Bytes} {pre post : List Expr} {s : Expr} (hs : ∃ args, UseRepo ps s args)
    (h1 : ∀ t ∈ pre, ∀ args, ¬ UseRepo ps t args) (h2 : ∀ t ∈ post, ∀ args, ¬ UseRepo ps t args) :
    useRepos (pre ++ s :: post) ps = [pre.length] := by
  have hmem : ∀ i, i ∈ useRepos (pre ++ s :: post) ps ↔ i = pre.length := by
    intro i
    rw [mem_useRepos]
    constructor
    · rintro ⟨t, args, ht, hu⟩
      rcases Nat.lt_trichotomy i pre.length with h | h | h
      · rw [List.getElem?_append_left h] at ht
        exact absurd hu (h1 t (List.mem_of_getElem? ht) args)
      · exact h
      · rw [List.getElem?_append_right (by omega), List.getElem?_cons, if_neg (by omega)] at ht
        exact absurd hu (h2 t (List.mem_of_getElem? ht) args)
    · rintro rfl
      obtain ⟨args, hu⟩ := hs
      exact ⟨s, args, by simp, hu⟩
  have hnd := useRepos_nodup ps (pre ++ s :: post)
  generalize useRepos (pre ++ s :: post) ps = l at hmem hnd
  match l, hmem, hnd with
  | [], hmem, _ => exact absurd ((hmem _).mpr rfl) (by simp)
  | [a], hmem, _ => rw [(hmem a).mp (by simp)]
  | a :: b :: l, hmem, hnd =>
    have ha := (hmem a).mp (by simp)
    have hb := (hmem b).mp (by simp)
    subst ha; subst hb
    simp at hnd

open Classical in
/-- the statements that are not `use_repo` calls of the proxies -/
noncomputable def others (ps : List Bytes) (stmts : List Expr) : List Expr := stmts.filter fun s => ¬ ∃ args, UseRepo ps s args

theorem filter_pointwise {α} (p : α → Bool) (l l' : List α)
    (h : ∀ i : Nat, l'[i]? = l[i]? ∨ ∃ x x', l[i]? = some x ∧ l'[i]? = some x' ∧ p x = false ∧ p x' = false) :
    l'.filter p = l.filter p := by
  induction l generalizing l' with
  | nil =>
    rcases h 0 with h0 | ⟨x, _, h1, _⟩
    · cases l' with
      | nil => rfl
      | cons a l' => cases h0
    · cases h1
  | cons x l ih =>
    cases l' with
    | nil =>
      rcases h 0 with h0 | ⟨_, x', _, h1, _⟩
      · cases h0
      · cases h1
    | cons x' l' =>
      have ht := ih l' (fun i => h (i + 1))
      rcases h 0 with h0 | ⟨a, a', h1, h2, h3, h4⟩
      · cases h0; rw [List.filter_cons, List.filter_cons, ht]
      · cases h1; cases h2
        rw [List.filter_cons_of_neg (by simp [h4]), List.filter_cons_of_neg (by simp [h3]), ht]

theorem others_set {ps : List Bytes} {stmts : List Expr} {i : Nat} {s s' : Expr} {args args' : List Expr} (hs : stmts[i]? = some s)
    (hu : UseRepo ps s args) (hu' : UseRepo ps s' args') : others ps (stmts.set i s') = others ps stmts := by
  apply filter_pointwise
  intro j
  by_cases hij : i = j
  · subst hij
    have hi : i < stmts.length := by
      rcases Nat.lt_or_ge i stmts.length with h | h
      · exact h
      · rw [List.getElem?_eq_none h] at hs; cases hs
    refine .inr ⟨s, s', hs, by rw [List.getElem?_set, if_pos rfl, if_pos hi], ?_, ?_⟩
    · simpa using ⟨args, hu⟩
    · simpa using ⟨args', hu'⟩
  · left; rw [List.getElem?_set, if_neg hij]

theorem others_remove (ps : List Bytes) (stmts : List Expr) (repos : List Bytes) (hr : [] ∉ repos) :
    others ps (removeRepoUsages stmts (useRepos stmts ps) repos) = others ps stmts := by
  classical
  apply filter_pointwise
  intro j
  by_cases h : ∃ s args, stmts[j]? = some s ∧ UseRepo ps s args
  · obtain ⟨s, args, hs, hu⟩ := h
    obtain ⟨s', hs', hre⟩ := (C44_remove ps stmts repos hr j).1 s args hs hu
    refine .inr ⟨s, s', hs, hs', ?_, ?_⟩
    · simpa using ⟨args, hu⟩
    · simpa using ⟨_, rearg_useRepo hu hre⟩
  · exact .inl ((C44_remove ps stmts repos hr j).2 fun s hs args hu => h ⟨s, args, hs, hu⟩)

theorem proxies_used {stmts : List Expr} {bzl name : Bytes} {dev : Bool} {q : Bytes} (h : q ∈ proxies stmts bzl name dev) :
    ∃ s ∈ stmts, UsesProxy s q := by
  obtain ⟨s, hs, b, args, hu, hq, _⟩ := (C44_proxies ..).mp h
  exact ⟨s, hs, hq, .inl ⟨b, name, args, hu⟩⟩

/-- the whole edit, for any proxies of which one is used in the file -/
theorem edit_spec (add : Bool) (stmts : List Expr) (ps : List Bytes) (repos : List Bytes) (hr : [] ∉ repos) (q : Bytes) (hq : q ∈ ps)
    (s : Expr) (hs : s ∈ stmts) (hu : UsesProxy s q) :
    ∃ stmts', editUseRepo add stmts ps repos = some stmts' ∧
      (∀ r, Used ps stmts' r ↔ if add then Used ps stmts r ∨ r ∈ repos else Used ps stmts r ∧ r ∉ repos) ∧
      others ps stmts' = others ps stmts ∧ ∃ t ∈ stmts', ∃ args, UseRepo ps t args := by
  have happly : ∀ stmts, (∃ s ∈ stmts, ∃ args, UseRepo ps s args) → ∃ stmts',
      (if add then addRepoUsages stmts (useRepos stmts ps) repos else some (removeRepoUsages stmts (useRepos stmts ps) repos)) = some stmts' ∧
      (∀ r, Used ps stmts' r ↔ if add then Used ps stmts r ∨ r ∈ repos else Used ps stmts r ∧ r ∉ repos) ∧
      others ps stmts' = others ps stmts ∧ ∃ t ∈ stmts', ∃ args, UseRepo ps t args := by
    intro stmts hne
    cases add with
    | true =>
      obtain ⟨i, _, _, s', _, hs, hu, _, _, hre, h⟩ := C44_add ps stmts repos hne hr
      exact ⟨_, h, fun r => by rw [if_pos rfl]; exact C44_add_used ps stmts _ repos hne hr h r, others_set hs hu (rearg_useRepo hu hre),
        s', List.mem_set (by
          rcases Nat.lt_or_ge i stmts.length with h | h
          · exact h
          · rw [List.getElem?_eq_none h] at hs; cases hs) _, _, rearg_useRepo hu hre⟩
    | false =>
      refine ⟨_, rfl, fun r => by rw [if_neg (by decide)]; exact C44_remove_used ps stmts repos hr r, others_remove ps stmts repos hr, ?_⟩
      obtain ⟨s, hs, args, hu⟩ := hne
      obtain ⟨i, hi⟩ := List.mem_iff_getElem?.mp hs
      obtain ⟨s', hs', hre⟩ := (C44_remove ps stmts repos hr i).1 s args hi hu
      exact ⟨s', List.mem_of_getElem? hs', _, rearg_useRepo hu hre⟩
  unfold editUseRepo
  dsimp only
  by_cases hc : useRepos stmts ps = []
  · rw [if_pos hc]
    have hnone : ∀ t ∈ stmts, ∀ args, ¬ UseRepo ps t args := by
      intro t ht args hu
      obtain ⟨i, hi⟩ := List.mem_iff_getElem?.mp ht
      have := (mem_useRepos ps stmts i).mpr ⟨t, args, hi, hu⟩
      rw [hc] at this; cases this
    rcases C44_new ps stmts with ⟨_, hno⟩ | ⟨pre, s0, post, q0, rfl, hq0, _, _, hnew⟩
    · exact absurd hu (hno s hs q hq)
    · rw [hnew]
      dsimp only
      have hu0 : UseRepo ps (.call {} (.ident { name := b!"use_repo" }) {} [.ident { name := q0 }] {} false false) [] :=
        .mk _ _ _ _ _ _ _ _ rfl hq0
      have hidx : useRepos (pre ++ s0 :: .call {} (.ident { name := b!"use_repo" }) {} [.ident { name := q0 }] {} false false :: post) ps
          = [pre.length + 1] := by
        have := useRepos_new (ps := ps) (pre := pre ++ [s0]) (post := post) ⟨[], hu0⟩
          (fun t ht => hnone t (by
            rcases List.mem_append.mp ht with h | h
            · exact List.mem_append_left _ h
            · rw [List.mem_singleton] at h; subst h; simp)) (fun t ht => hnone t (by simp [ht]))
        simpa using this
      rw [← hidx]
      obtain ⟨stmts', h1, h2, h3, h4⟩ := happly _ ⟨_, List.mem_append_right _ (List.mem_cons_of_mem _ (List.mem_cons_self ..)), [], hu0⟩
      refine ⟨stmts', h1, fun r => ?_, ?_, h4⟩
      rotate_left
      · rw [h3]
        unfold others
        have hsplit : ∀ (x : Expr), pre ++ s0 :: x :: post = (pre ++ [s0]) ++ x :: post := by simp
        rw [hsplit, List.filter_append, List.filter_cons_of_neg (by simpa using ⟨[], hu0⟩), ← List.filter_append]
        simp only [List.append_assoc, List.singleton_append]
      rw [h2]
      have hsame : ∀ r, Used ps (pre ++ s0 :: .call {} (.ident { name := b!"use_repo" }) {} [.ident { name := q0 }] {} false false :: post) r ↔
          Used ps (pre ++ s0 :: post) r := by
        intro r
        constructor
        · rintro ⟨t, ht, args, hu, a, ha, he⟩
          have ht' : t ∈ pre ++ s0 :: post ∨ t = .call {} (.ident { name := b!"use_repo" }) {} [.ident { name := q0 }] {} false false := by
            simp at ht ⊢
            rcases ht with h | h | h | h <;> simp [h]
          rcases ht' with ht' | rfl
          · exact absurd hu (hnone t ht' args)
          · cases useRepo_fun hu0 hu; cases ha
        · rintro ⟨t, ht, args, hu, _⟩
          exact absurd hu (hnone t ht args)
      simp only [hsame]
  · rw [if_neg hc]
    obtain ⟨i, hi⟩ := List.exists_mem_of_ne_nil _ hc
    obtain ⟨t, args, ht, hut⟩ := (mem_useRepos ps stmts i).mp hi
    exact happly stmts ⟨t, List.mem_of_getElem? ht, args, hut⟩

/-- **C44**: the whole command, for the proxies of an extension: it does not panic; when adding, the repos used through the proxies
afterwards are those before and the given ones, when removing those before without the given ones; and the statements that are not
`use_repo` calls of the proxies stay as they are. -/
theorem C44_command (add : Bool) (stmts : List Expr) (bzl name : Bytes) (dev : Bool) (repos : List Bytes) (hr : [] ∉ repos)
    (hp : proxies stmts bzl name dev ≠ []) :
    ∃ stmts', editUseRepo add stmts (proxies stmts bzl name dev) repos = some stmts' ∧
      (∀ r, Used (proxies stmts bzl name dev) stmts' r ↔
        if add then Used (proxies stmts bzl name dev) stmts r ∨ r ∈ repos
        else Used (proxies stmts bzl name dev) stmts r ∧ r ∉ repos) ∧
      others (proxies stmts bzl name dev) stmts' = others (proxies stmts bzl name dev) stmts := by
  obtain ⟨q, hq⟩ := List.exists_mem_of_ne_nil _ hp
  obtain ⟨s, hs, hu⟩ := proxies_used hq
  obtain ⟨l, h1, h2, h3, _⟩ := edit_spec add stmts _ repos hr q hq s hs hu
  exact ⟨l, h1, h2, h3⟩

/-! #### cases -/

/-- `ext = use_extension("//:e.bzl", "e")`, `use_repo(ext, "a", b = "c")` -/
def exFile : List Expr :=
  [.assign {} (.ident { name := b!"ext" }) {} b!"=" false (.call {} (.ident { name := b!"use_extension" }) {}
      [.string { value := b!"//:e.bzl" }, .string { value := b!"e" }] {} false false),
    .call {} (.ident { name := b!"use_repo" }) {} [.ident { name := b!"ext" }, .string { value := b!"a" },
      .assign {} (.ident { name := b!"b" }) {} b!"=" false (.string { value := b!"c" })] {} false false]

example : proxies exFile b!"@//:e.bzl" b!"e" false = [b!"ext"] := by decide +kernel
example : useRepos exFile [b!"ext"] = [1] := by decide
example : ∃ s ∈ exFile, ∃ args, UseRepo [b!"ext"] s args := ⟨exFile[1], List.getElem_mem _, _, .mk _ _ _ _ _ _ _ _ rfl (List.mem_singleton.mpr rfl)⟩
example : removeRepoUsages exFile [1] [b!"c"] =
    [exFile[0], .call {} (.ident { name := b!"use_repo" }) {} [.ident { name := b!"ext" }, .string { value := b!"a" }] {} false false] := rfl

/-- **C44**, what is not so: a repo given twice is added twice, although the documentation says that no duplicates are introduced -/
theorem C44_duplicate_witness :
    addRepoUsages exFile (useRepos exFile [b!"ext"]) [b!"x", b!"x"] =
      some [exFile[0], .call {} (.ident { name := b!"use_repo" }) {} [.ident { name := b!"ext" }, .string { value := b!"a" },
        .assign {} (.ident { name := b!"b" }) {} b!"=" false (.string { value := b!"c" }),
        .string { value := b!"x" }, .string { value := b!"x" }] {} false false] := rfl

/-! ### the labels of extensions -/

/-- the rule gives the module this apparent name: its `repo_name`, if there is one, or else its `name` -/
def NamesModule (m : Expr) (n : Bytes) : Prop :=
  n ≠ [] ∧ (attrString b!"repo_name" (callArgs m) = n ∨ (attrString b!"repo_name" (callArgs m) = [] ∧ attrString b!"name" (callArgs m) = n))

theorem apparent_fold (l : List Expr) (a : Bytes) :
    (∃ pre m post n, l = pre ++ m :: post ∧ NamesModule m n ∧ (∀ x ∈ post, ∀ n, ¬ NamesModule x n) ∧
      l.foldl (fun a m =>
        if attrString b!"repo_name" (callArgs m) ≠ [] then attrString b!"repo_name" (callArgs m)
        else if attrString b!"name" (callArgs m) ≠ [] then attrString b!"name" (callArgs m) else a) a = n) ∨
    ((∀ x ∈ l, ∀ n, ¬ NamesModule x n) ∧ l.foldl (fun a m =>
        if attrString b!"repo_name" (callArgs m) ≠ [] then attrString b!"repo_name" (callArgs m)
        else if attrString b!"name" (callArgs m) ≠ [] then attrString b!"name" (callArgs m) else a) a = a) := by
  induction l generalizing a with
  | nil => exact .inr ⟨by simp, rfl⟩
  | cons x l ih =>
    rw [List.foldl_cons]
    by_cases h1 : attrString b!"repo_name" (callArgs x) = []
    · by_cases h2 : attrString b!"name" (callArgs x) = []
      · rw [if_neg (by simpa using h1), if_neg (by simpa using h2)]
        rcases ih a with ⟨pre, m, post, n, rfl, hm, hp, he⟩ | ⟨hp, he⟩
        · exact .inl ⟨x :: pre, m, post, n, rfl, hm, hp, he⟩
        · refine .inr ⟨?_, he⟩
          intro y hy n hn
          rcases List.mem_cons.1 hy with rfl | hy
          · rcases hn with ⟨hne, h | ⟨_, h⟩⟩
            · exact hne (h.symm.trans h1)
            · exact hne (h.symm.trans h2)
          · exact hp y hy n hn
      · rw [if_neg (by simpa using h1), if_pos h2]
        rcases ih (attrString b!"name" (callArgs x)) with ⟨pre, m, post, n, rfl, hm, hp, he⟩ | ⟨hp, he⟩
        · exact .inl ⟨x :: pre, m, post, n, rfl, hm, hp, he⟩
        · exact .inl ⟨[], x, l, _, rfl, ⟨h2, .inr ⟨h1, rfl⟩⟩, hp, he⟩
    · rw [if_pos h1]
      rcases ih (attrString b!"repo_name" (callArgs x)) with ⟨pre, m, post, n, rfl, hm, hp, he⟩ | ⟨hp, he⟩
      · exact .inl ⟨x :: pre, m, post, n, rfl, hm, hp, he⟩
      · exact .inl ⟨[], x, l, _, rfl, ⟨h1, .inl rfl⟩, hp, he⟩

/-- **C44**: the apparent name of the module is given by the last `module` call that has one; without any it is empty -/
theorem C44_apparent_name (stmts : List Expr) :
    (∃ pre m post, rules b!"module" stmts = pre ++ m :: post ∧ NamesModule m (getApparentModuleName stmts) ∧ ∀ x ∈ post, ∀ n, ¬ NamesModule x n) ∨
    ((∀ x ∈ rules b!"module" stmts, ∀ n, ¬ NamesModule x n) ∧ getApparentModuleName stmts = []) := by
  rcases apparent_fold (rules b!"module" stmts) [] with ⟨pre, m, post, n, h, hm, hp, he⟩ | ⟨hp, he⟩
  · left
    refine ⟨pre, m, post, h, ?_, hp⟩
    unfold getApparentModuleName
    rw [he]
    exact hm
  · exact .inr ⟨hp, he⟩

/-- the repository, package and target of a label in MODULE.bazel; the main repository has the name `own` -/
def Means (own raw repo pkg target : Bytes) : Prop :=
  ∃ r, Props.Labels.denotes raw [] = (r, pkg, target) ∧ ((r = [] ∧ repo = own) ∨ (r ≠ [] ∧ repo = r))

theorem normalize_eq (own raw repo pkg target : Bytes) (h : Means own raw repo pkg target) : normalizeLabelString raw own = Verif.Labels.format ⟨repo, pkg, target⟩ := by
  obtain ⟨r, h1, h2⟩ := h
  simp only [Props.Labels.denotes, Prod.mk.injEq] at h1
  obtain ⟨h1, rfl, rfl⟩ := h1
  unfold normalizeLabelString
  simp only [h1]
  rcases h2 with ⟨rfl, rfl⟩ | ⟨h2, rfl⟩
  · rw [if_pos rfl]
  · rw [if_neg h2, ← h1]

theorem wf_means (own raw repo pkg target : Bytes) (ho : c!"/" ∉ own) (ho' : own.head? ≠ some c!"@") (h : Means own raw repo pkg target) :
    c!":" ∉ pkg ∧ c!"/" ∉ repo ∧ repo.head? ≠ some c!"@" := by
  obtain ⟨r, h1, h2⟩ := h
  have : c!":" ∉ pkg ∧ c!"/" ∉ r ∧ r.head? ≠ some c!"@" := by
    simp only [Props.Labels.denotes, Prod.mk.injEq] at h1
    obtain ⟨rfl, rfl, _⟩ := h1
    unfold Verif.Labels.parseRelative
    split
    · simp
    · have := Verif.Labels.parse_wf raw
      exact ⟨this.pkg, this.repo, this.repoAt⟩
  rcases h2 with ⟨rfl, rfl⟩ | ⟨_, rfl⟩
  · exact ⟨this.1, ho, ho'⟩
  · exact this

/-- **C44**: labels of extensions are the same exactly if they mean the same target, where a label without repository (`//p:t`, `p`, `@//p:t`) is in the
module itself. (The target must not be empty.) -/
theorem C44_same_label (own a b : Bytes) (ho : c!"/" ∉ own) (ho' : own.head? ≠ some c!"@") (r p t r' p' t' : Bytes)
    (ha : Means own a r p t) (hb : Means own b r' p' t') (ht : t ≠ []) (ht' : t' ≠ []) :
    normalizeLabelString a own = normalizeLabelString b own ↔ r = r' ∧ p = p' ∧ t = t' := by
  rw [normalize_eq _ _ _ _ _ ha, normalize_eq _ _ _ _ _ hb]
  obtain ⟨h1, h2, h3⟩ := wf_means own a r p t ho ho' ha
  obtain ⟨h1', h2', h3'⟩ := wf_means own b r' p' t' ho ho' hb
  constructor
  · intro h
    have := Props.Labels.C04_format_injective ⟨r, p, t⟩ ⟨r', p', t'⟩ h1 h2 h3 ht h1' h2' h3' ht' h
    simpa using this
  · rintro ⟨rfl, rfl, rfl⟩; rfl

/-- `//x:e.bzl`, `@//x:e.bzl` and `@m//x:e.bzl` are the same in module `m`, `@n//x:e.bzl` is another one -/
theorem C44_same_label_example :
    normalizeLabelString b!"//x:e.bzl" b!"m" = b!"@m//x:e.bzl" ∧ normalizeLabelString b!"@//x:e.bzl" b!"m" = b!"@m//x:e.bzl" ∧
    normalizeLabelString b!"@m//x:e.bzl" b!"m" = b!"@m//x:e.bzl" ∧ normalizeLabelString b!"@n//x:e.bzl" b!"m" = b!"@n//x:e.bzl" ∧
    Means b!"m" b!"@//x:e.bzl" b!"m" b!"x" b!"e.bzl" := by
  exact ⟨by decide +kernel, by decide +kernel, by decide +kernel, by decide +kernel, [], by decide +kernel, .inl ⟨rfl, rfl⟩⟩

end Verif.Props.Bzlmod
