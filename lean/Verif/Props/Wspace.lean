import Verif.Model.Wspace
import Verif.Proofs.Sort
import Verif.Props.FileType
/-
C43: searching for the workspace.
-/
namespace Verif.Props.Wspace
open Verif Verif.Wspace
open Verif.Props.FileType (afterLast_app)

/-! ### specification -/

/-- an element of a path -/
def Name (c : Bytes) : Prop := c ≠ [] ∧ c!"/" ∉ c ∧ c ≠ b!":\\"

/-- the absolute path with these elements -/
def path (cs : List Bytes) : Bytes := cs.flatMap (fun c => c!"/" :: c)

/-- one of the files is in the directory and qualifies -/
def Qualifies (stat : Bytes → Stat) (files : List (Bytes × (Info → Bool))) (d : Bytes) : Prop :=
  ∃ f ∈ files, ∃ i, stat (d ++ c!"/" :: f.1) = .ok i ∧ f.2 i = true

/-- looking for one of the files fails with the error -/
def Fails (stat : Bytes → Stat) (files : List (Bytes × (Info → Bool))) (d : Bytes) (e : Nat) : Prop :=
  ∃ f ∈ files, stat (d ++ c!"/" :: f.1) = .err e

/-- nothing of interest in the directory -/
def Quiet (stat : Bytes → Stat) (files : List (Bytes × (Info → Bool))) (d : Bytes) : Prop :=
  ¬ Qualifies stat files d ∧ ∀ e, ¬ Fails stat files d e

/-- all directories from `a` (exclusively) down to `a ++ b` are quiet -/
def QuietBelow (stat : Bytes → Stat) (files : List (Bytes × (Info → Bool))) (a b : List Bytes) : Prop :=
  ∀ b1 b2, b = b1 ++ b2 → b1 ≠ [] → Quiet stat files (path (a ++ b1))

/-! ### proofs -/

theorem findHere_spec (stat : Bytes → Stat) (d : Bytes) (files : List (Bytes × (Info → Bool))) :
    match findHere stat d files with
    | none => Quiet stat files d
    | some (.dir d') => d' = d ∧ Qualifies stat files d
    | some (.err e) => Fails stat files d e
    | some .notExist => False := by
  induction files with
  | nil => exact ⟨(fun ⟨f, h, _⟩ => nomatch h), (fun e ⟨f, h, _⟩ => nomatch h)⟩
  | cons fo l ih =>
    obtain ⟨file, ok⟩ := fo
    have hQ : ∀ {x}, Qualifies stat l x → Qualifies stat ((file, ok) :: l) x := fun ⟨f, h, r⟩ => ⟨f, List.mem_cons_of_mem _ h, r⟩
    have hF : ∀ {x e}, Fails stat l x e → Fails stat ((file, ok) :: l) x e := fun ⟨f, h, r⟩ => ⟨f, List.mem_cons_of_mem _ h, r⟩
    have hrest : (∀ i, stat (d ++ c!"/" :: file) = .ok i → ok i = false) → (∀ e, stat (d ++ c!"/" :: file) ≠ .err e) →
        match findHere stat d l with
        | none => Quiet stat ((file, ok) :: l) d
        | some (.dir d') => d' = d ∧ Qualifies stat ((file, ok) :: l) d
        | some (.err e) => Fails stat ((file, ok) :: l) d e
        | some .notExist => False := by
      intro h1 h2
      revert ih
      cases findHere stat d l with
      | none =>
        rintro ⟨q1, q2⟩
        refine ⟨fun ⟨f, hf, i, hi, hok⟩ => ?_, fun e ⟨f, hf, he⟩ => ?_⟩
        · rcases List.mem_cons.mp hf with rfl | hf
          · have := h1 i hi; rw [show ok i = true from hok] at this; cases this
          · exact q1 ⟨f, hf, i, hi, hok⟩
        · rcases List.mem_cons.mp hf with rfl | hf
          · exact h2 e he
          · exact q2 e ⟨f, hf, he⟩
      | some r =>
        cases r with
        | dir d' => exact fun ⟨h, q⟩ => ⟨h, hQ q⟩
        | err e => exact fun q => hF q
        | notExist => exact id
    unfold findHere
    cases hs : stat (pathJoin d file) with
    | ok i =>
      dsimp only
      cases hok : ok i with
      | true => rw [if_pos rfl]; exact ⟨rfl, (file, ok), by simp, i, hs, hok⟩
      | false =>
        simp only [Bool.false_eq_true, if_false]
        refine hrest (fun i' hi' => ?_) (fun e he => ?_)
        · rw [show d ++ c!"/" :: file = pathJoin d file from rfl, hs] at hi'; cases hi'; exact hok
        · rw [show d ++ c!"/" :: file = pathJoin d file from rfl, hs] at he; cases he
    | notExist =>
      refine hrest (fun i' hi' => ?_) (fun e he => ?_)
      · rw [show d ++ c!"/" :: file = pathJoin d file from rfl, hs] at hi'; cases hi'
      · rw [show d ++ c!"/" :: file = pathJoin d file from rfl, hs] at he; cases he
    | err e => exact ⟨(file, ok), by simp, hs⟩

theorem path_append (a b : List Bytes) : path (a ++ b) = path a ++ path b := by simp [path]

theorem path_snoc (a : List Bytes) (c : Bytes) : path (a ++ [c]) = path a ++ c!"/" :: c := by simp [path]

theorem path_ne_nil {a : List Bytes} (h : a ≠ []) : path a ≠ [] := by
  cases a with
  | nil => exact absurd rfl h
  | cons c a => simp [path]

theorem pathDir_path (a : List Bytes) (c : Bytes) (hc : Name c) : pathDir (path (a ++ [c])) = if a = [] then b!"/" else path a := by
  rw [path_snoc]
  unfold pathDir
  rw [if_pos (by simp), afterLast_app _ _ _ hc.2.1]
  dsimp only
  have : (path a ++ c!"/" :: c).take ((path a ++ c!"/" :: c).length - c.length - 1) = path a := by
    rw [List.length_append, List.length_cons, show (path a).length + (c.length + 1) - c.length - 1 = (path a).length by omega, List.take_left']
    rfl
  rw [this]
  by_cases ha : a = []
  · subst ha; rfl
  · rw [if_neg ha, if_neg (path_ne_nil ha)]

theorem snoc_cases (l : List Bytes) : l = [] ∨ ∃ a c, l = a ++ [c] := by
  rcases List.eq_nil_or_concat l with h | ⟨a, c, h⟩
  · exact .inl h
  · exact .inr ⟨a, c, by rw [h]; simp⟩

/-- a path is not one of those where the search ends -/
theorem path_go (a : List Bytes) (c : Bytes) (hc : Name c) (ha : ∀ x ∈ a, Name x) :
    ¬ (path (a ++ [c]) = [] ∨ path (a ++ [c]) = b!"/" ∨ path (a ++ [c]) = b!"." ∨
      ((path (a ++ [c])).length = 3 ∧ hasSuffix (path (a ++ [c])) b!":\\" = true)) := by
  have hlen : 1 ≤ c.length := by cases c with | nil => exact absurd rfl hc.1 | cons _ _ => simp
  rw [path_snoc]
  rintro (h | h | h | ⟨h, hs⟩)
  · simp at h
  · have := congrArg List.length h; simp at this; omega
  · have := congrArg List.length h; simp at this; omega
  · have h3 : path a = [] ∧ c.length = 2 := by
      cases a with
      | nil => simp [path] at h ⊢; omega
      | cons x a =>
        have hx : 1 ≤ x.length := by
          have := (ha x (by simp)).1
          cases x with | nil => exact absurd rfl this | cons _ _ => simp
        simp [path] at h
        omega
    rw [h3.1, List.nil_append] at hs
    unfold hasSuffix at hs
    obtain ⟨x, hx⟩ := List.isSuffixOf_iff_suffix.mp hs
    have hxl : x.length = 1 := by have := congrArg List.length hx; simp at this; omega
    obtain ⟨y, rfl⟩ := List.length_eq_one_iff.mp hxl
    cases hx
    exact hc.2.2 rfl

theorem sort_mem (files : List (Bytes × (Info → Bool))) (f : Bytes × (Info → Bool)) :
    f ∈ sortBy (fun a b => strLess a.1 b.1) files ↔ f ∈ files := (sortBy_perm _ files).mem_iff

theorem qualifies_sort (stat : Bytes → Stat) (files : List (Bytes × (Info → Bool))) (d : Bytes) :
    Qualifies stat (sortBy (fun a b => strLess a.1 b.1) files) d ↔ Qualifies stat files d :=
  ⟨fun ⟨f, h, r⟩ => ⟨f, (sort_mem files f).mp h, r⟩, fun ⟨f, h, r⟩ => ⟨f, (sort_mem files f).mpr h, r⟩⟩

theorem fails_sort (stat : Bytes → Stat) (files : List (Bytes × (Info → Bool))) (d : Bytes) (e : Nat) :
    Fails stat (sortBy (fun a b => strLess a.1 b.1) files) d e ↔ Fails stat files d e :=
  ⟨fun ⟨f, h, r⟩ => ⟨f, (sort_mem files f).mp h, r⟩, fun ⟨f, h, r⟩ => ⟨f, (sort_mem files f).mpr h, r⟩⟩

theorem find_root (stat : Bytes → Stat) (files : List (Bytes × (Info → Bool))) (n : Nat) : find stat files n b!"/" = .notExist := by
  cases n with
  | zero => rfl
  | succ n => unfold find; rw [if_pos (by simp)]

/-- what `Find` returns is right -/
def Right (stat : Bytes → Stat) (files : List (Bytes × (Info → Bool))) (cs : List Bytes) : Found → Prop
  | .dir d => ∃ a b, cs = a ++ b ∧ a ≠ [] ∧ d = path a ∧ Qualifies stat files (path a) ∧ QuietBelow stat files a b
  | .notExist => QuietBelow stat files [] cs
  | .err e => ∃ a b, cs = a ++ b ∧ a ≠ [] ∧ Fails stat files (path a) e ∧ QuietBelow stat files a b

theorem quiet_snoc {stat : Bytes → Stat} {files : List (Bytes × (Info → Bool))} {a b : List Bytes} {c : Bytes}
    (h : QuietBelow stat files a b) (hc : Quiet stat files (path (a ++ b ++ [c]))) : QuietBelow stat files a (b ++ [c]) := by
  intro b1 b2 hb hne
  rcases snoc_cases b2 with rfl | ⟨b3, x, rfl⟩
  · rw [List.append_nil] at hb
    rw [← hb, ← List.append_assoc]; exact hc
  · rw [← List.append_assoc] at hb
    exact h b1 b3 (List.append_inj_left' hb rfl) hne

/-- **C43 (search).** For every directory, `Find` returns the nearest ancestor (or the directory itself) that has a qualifying file, if looking
at the files of the directories below it gave no error; it reports that there is none if no ancestor but the root has one; and it fails with
an error only if looking for a file failed in a directory below which there is nothing. -/
theorem C43_find (stat : Bytes → Stat) (files : List (Bytes × (Info → Bool))) (cs : List Bytes) (hn : ∀ c ∈ cs, Name c) (hne : cs ≠ []) :
    ∀ n, (path cs).length < n → Right stat files cs (find stat files n (path cs)) := by
  have key : ∀ k (cs : List Bytes), cs.length = k → (∀ c ∈ cs, Name c) → cs ≠ [] → ∀ n, (path cs).length < n →
      Right stat files cs (find stat files n (path cs)) := by
    intro k
    induction k with
    | zero => intro cs h _ hne; exact absurd (List.length_eq_zero_iff.mp h) hne
    | succ k ih =>
      intro cs hk hn hne n hlt
      rcases snoc_cases cs with rfl | ⟨a, c, rfl⟩
      · exact absurd rfl hne
      · cases n with
        | zero => omega
        | succ n =>
          have hc : Name c := hn c (by simp)
          have ha : ∀ x ∈ a, Name x := fun x hx => hn x (by simp [hx])
          unfold find
          rw [if_neg (path_go a c hc ha)]
          have hspec := findHere_spec stat (path (a ++ [c])) (sortBy (fun a b => strLess a.1 b.1) files)
          revert hspec
          cases findHere stat (path (a ++ [c])) (sortBy (fun a b => strLess a.1 b.1) files) with
          | some r =>
            cases r with
            | dir d =>
              rintro ⟨rfl, hq⟩
              exact ⟨a ++ [c], [], by simp, by simp, rfl, (qualifies_sort _ _ _).mp hq, fun b1 b2 h h' => by
                cases b1 with
                | nil => exact absurd rfl h'
                | cons _ _ => cases h⟩
            | err e =>
              intro hq
              exact ⟨a ++ [c], [], by simp, by simp, (fails_sort _ _ _ _).mp hq, fun b1 b2 h h' => by
                cases b1 with
                | nil => exact absurd rfl h'
                | cons _ _ => cases h⟩
            | notExist => exact False.elim
          | none =>
            rintro ⟨hq1, hq2⟩
            have hquiet : Quiet stat files (path (a ++ [c])) :=
              ⟨fun h => hq1 ((qualifies_sort _ _ _).mpr h), fun e h => hq2 e ((fails_sort _ _ _ _).mpr h)⟩
            dsimp only
            rw [pathDir_path a c hc]
            by_cases ha0 : a = []
            · subst ha0
              rw [if_pos rfl, find_root]
              exact quiet_snoc (a := []) (b := []) (fun b1 b2 h h' => by
                cases b1 with
                | nil => exact absurd rfl h'
                | cons _ _ => cases h) (by simpa using hquiet)
            · rw [if_neg ha0]
              have hlen : (path a).length < n := by
                rw [path_snoc] at hlt
                simp at hlt
                omega
              have := ih a (by simp at hk; omega) ha ha0 n hlen
              revert this
              cases find stat files n (path a) with
              | dir d =>
                rintro ⟨a', b', rfl, h1, h2, h3, h4⟩
                exact ⟨a', b' ++ [c], by simp, h1, h2, h3, quiet_snoc h4 hquiet⟩
              | err e =>
                rintro ⟨a', b', rfl, h1, h3, h4⟩
                exact ⟨a', b' ++ [c], by simp, h1, h3, quiet_snoc h4 hquiet⟩
              | notExist => intro h; exact quiet_snoc (a := []) h hquiet
  intro n
  exact key cs.length cs rfl hn hne n

/-- **C43 (nearest).** Without errors of the file system: `Find` returns `d` iff `d` is an ancestor with a qualifying file and no directory
between it and the start has one. -/
theorem C43_nearest (stat : Bytes → Stat) (files : List (Bytes × (Info → Bool))) (hok : ∀ p e, stat p ≠ .err e) (cs : List Bytes)
    (hn : ∀ c ∈ cs, Name c) (hne : cs ≠ []) :
    (∀ d, find stat files ((path cs).length + 1) (path cs) = .dir d ↔ ∃ a b, cs = a ++ b ∧ a ≠ [] ∧ d = path a ∧ Qualifies stat files (path a) ∧
      ∀ b1 b2, b = b1 ++ b2 → b1 ≠ [] → ¬ Qualifies stat files (path (a ++ b1))) ∧
    (find stat files ((path cs).length + 1) (path cs) = .notExist ↔ ∀ a b, cs = a ++ b → a ≠ [] → ¬ Qualifies stat files (path a)) := by
  have h := C43_find stat files cs hn hne ((path cs).length + 1) (by omega)
  have hno : ∀ d e, ¬ Fails stat files d e := fun d e ⟨f, _, hf⟩ => hok _ _ hf
  revert h
  cases find stat files ((path cs).length + 1) (path cs) with
  | err e => rintro ⟨a, b, _, _, hf, _⟩; exact absurd hf (hno _ _)
  | notExist =>
    intro hq
    refine ⟨fun d => ⟨(fun h => nomatch h), ?_⟩, ⟨fun _ a b hab hne => (hq a b hab hne).1, fun _ => rfl⟩⟩
    rintro ⟨a, b, hab, ha, _, hqa, _⟩
    exact absurd hqa (hq a b hab ha).1
  | dir d0 =>
    rintro ⟨a0, b0, hcs, ha0, rfl, hq0, hquiet⟩
    refine ⟨fun d => ⟨?_, ?_⟩, ⟨fun h => (nomatch h), fun h => absurd hq0 (h a0 b0 hcs ha0)⟩⟩
    · intro h
      cases h
      exact ⟨a0, b0, hcs, ha0, rfl, hq0, fun b1 b2 hb hne => (hquiet b1 b2 hb hne).1⟩
    · rintro ⟨a, b, hab, ha, rfl, hqa, hnq⟩
      rw [hcs] at hab
      rcases List.append_eq_append_iff.mp hab with ⟨x, h1, h2⟩ | ⟨x, h1, h2⟩
      · cases x with
        | nil => rw [h1, List.append_nil]
        | cons y x => exact absurd (by rw [h1] at hqa; exact hqa) (hquiet (y :: x) b h2 (by simp)).1
      · cases x with
        | nil => rw [h1, List.append_nil]
        | cons y x => exact absurd (by rw [h1] at hq0; exact hq0) (hnq (y :: x) b0 h2 (by simp))

/-- **C43 (determinism).** The order of the iteration over the map of files does not matter. -/
theorem C43_deterministic (stat : Bytes → Stat) (files files' : List (Bytes × (Info → Bool))) (hp : files'.Perm files)
    (hd : (files.map (·.1)).Nodup) (n : Nat) (d : Bytes) : find stat files' n d = find stat files n d := by
  have hsw : StrictWeak (fun a b : Bytes × (Info → Bool) => strLess a.1 b.1) :=
    (strLess_total.comap (fun a : Bytes × (Info → Bool) => a.1)).strictWeak (fun a b c (h : a.1 = b.1) => by simp [h])
  have hinj : ∀ a ∈ files, ∀ b ∈ files, a.1 = b.1 → a = b := by
    clear hp
    induction files with
    | nil => intro a h; cases h
    | cons x l ih =>
      rw [List.map_cons, List.nodup_cons] at hd
      intro a ha b hb hab
      rcases List.mem_cons.mp ha with rfl | ha' <;> rcases List.mem_cons.mp hb with rfl | hb'
      · rfl
      · exact absurd (List.mem_map.mpr ⟨b, hb', hab.symm⟩) hd.1
      · exact absurd (List.mem_map.mpr ⟨a, ha', hab⟩) hd.1
      · exact ih hd.2 a ha' b hb' hab
  have hs : sortBy (fun a b => strLess a.1 b.1) files' = sortBy (fun a b => strLess a.1 b.1) files := by
    refine sortedPerm_unique (l := files) (fun a ha b hb h1 h2 => hinj a ha b hb ?_) ⟨(sortBy_perm _ _).trans hp, sortBy_sorted hsw _⟩
      ⟨sortBy_perm _ _, sortBy_sorted hsw _⟩
    apply Classical.byContradiction
    intro hne
    rcases strLess_total.total a.1 b.1 hne with h | h
    · rw [h] at h1; cases h1
    · rw [h] at h2; cases h2
  induction n generalizing d with
  | zero => rfl
  | succ n ih =>
    unfold find
    rw [hs, ih]

/-! ### splitting paths -/

theorem path_join (b : List Bytes) : path b = if b = [] then [] else c!"/" :: joinWith c!"/" b := by
  induction b with
  | nil => rfl
  | cons x b ih =>
    rw [if_neg (by simp)]
    cases b with
    | nil => simp [path, joinWith]
    | cons y b =>
      rw [if_neg (by simp)] at ih
      show c!"/" :: x ++ path (y :: b) = _
      rw [ih]
      rfl

theorem relPath_path (a b : List Bytes) : relPath (path a) (path (a ++ b)) = some (joinWith c!"/" b) := by
  unfold relPath
  by_cases hb : b = []
  · subst hb
    rw [List.append_nil, if_pos rfl]
    rfl
  · have hne : path (a ++ b) ≠ path a := by
      rw [path_append]
      intro h
      exact path_ne_nil hb (List.append_right_eq_self.mp h)
    rw [if_neg hne, path_append, path_join b, if_neg hb]
    have : path a ++ c!"/" :: joinWith c!"/" b = (path a ++ b!"/") ++ joinWith c!"/" b := by simp
    rw [if_pos (by unfold hasPrefix; exact List.isPrefixOf_iff_prefix.mpr ⟨_, this.symm⟩), this]
    rw [show (path a).length + 1 = (path a ++ b!"/").length by simp, List.drop_left']
    rfl

/-- **C43 (workspace root).** If some ancestor of the working directory qualifies, the root and the rest reassemble to the working directory;
otherwise both are empty. -/
theorem C43_workspace_root (stat : Bytes → Stat) (cs : List Bytes) (hn : ∀ c ∈ cs, Name c) (hne : cs ≠ []) (root rest : Bytes)
    (h : findWorkspaceRoot stat (path cs) = (root, rest)) :
    (root = [] ∧ rest = [] ∧ ∀ d, find stat repoRootFiles ((path cs).length + 1) (path cs) ≠ .dir d) ∨
    ∃ a b, cs = a ++ b ∧ a ≠ [] ∧ root = path a ∧ rest = joinWith c!"/" b ∧ Qualifies stat repoRootFiles root ∧
      QuietBelow stat repoRootFiles a b := by
  have hf := C43_find stat repoRootFiles cs hn hne ((path cs).length + 1) (by omega)
  unfold findWorkspaceRoot at h
  revert hf h
  cases find stat repoRootFiles ((path cs).length + 1) (path cs) with
  | err e => intro h _; cases h; exact .inl ⟨rfl, rfl, (fun d h => nomatch h)⟩
  | notExist => intro h _; cases h; exact .inl ⟨rfl, rfl, (fun d h => nomatch h)⟩
  | dir d =>
    rintro h ⟨a, b, rfl, ha, rfl, hq, hquiet⟩
    refine .inr ⟨a, b, rfl, ha, ?_, ?_, ?_, hquiet⟩
    · dsimp only at h; split at h <;> (cases h; rfl)
    · dsimp only at h
      rw [path_append] at h
      split at h
      · rename_i hlen
        cases h
        have : path b = [] := by rw [List.length_append] at hlen; exact List.length_eq_zero_iff.mp (by omega)
        by_cases hb : b = []
        · subst hb; rfl
        · exact absurd this (path_ne_nil hb)
      · rename_i hlen
        cases h
        by_cases hb : b = []
        · subst hb; simp [path] at hlen
        · rw [path_join b, if_neg hb, show path a ++ c!"/" :: joinWith c!"/" b = (path a ++ b!"/") ++ joinWith c!"/" b by simp,
            show (path a).length + 1 = (path a ++ b!"/").length by simp, List.drop_left']
          rfl
    · have : root = path a := by dsimp only at h; split at h <;> (cases h; rfl)
      rw [this]; exact hq

theorem path_prefix {a p b q : List Bytes} (h : a ++ b = p ++ q) (hp : hasPrefix (path p) (path a) = true) : ∃ x, p = a ++ x := by
  rcases List.append_eq_append_iff.mp h with ⟨x, h1, _⟩ | ⟨x, h1, _⟩
  · exact ⟨x, h1⟩
  · cases x with
    | nil => exact ⟨[], by rw [h1]; simp⟩
    | cons y x =>
      exfalso
      unfold hasPrefix at hp
      obtain ⟨r, hr⟩ := List.isPrefixOf_iff_prefix.mp hp
      rw [h1, path_append] at hr
      have := congrArg List.length hr
      have h2 : 1 ≤ (path (y :: x)).length := by
        have := path_ne_nil (a := y :: x) (by simp)
        cases hh : path (y :: x) with
        | nil => exact absurd hh this
        | cons _ _ => simp
      simp only [List.length_append] at this
      omega

/-- **C43 (splitting).** For every file: if no workspace is found, all parts are empty; otherwise root, package and label are the elements
of the path in three parts, so that they reassemble to it; the root is the nearest ancestor directory that qualifies as a workspace; and root
and package together are the nearest one that has a build file, if that is inside the workspace, else the package is empty. -/
theorem C43_split (stat : Bytes → Stat) (cs : List Bytes) (f : Bytes) (hn : ∀ c ∈ cs, Name c) (hf : Name f) (hne : cs ≠ []) :
    (splitFilePath stat (path (cs ++ [f])) = ([], [], []) ∧ ∀ d, find stat repoRootFiles ((path cs).length + 1) (path cs) ≠ .dir d) ∨
    ∃ root pkg label, cs ++ [f] = root ++ pkg ++ label ∧ root ≠ [] ∧ label ≠ [] ∧
      splitFilePath stat (path (cs ++ [f])) = (path root, joinWith c!"/" pkg, joinWith c!"/" label) ∧
      find stat repoRootFiles ((path cs).length + 1) (path cs) = .dir (path root) ∧
      ((find stat packageRootFiles ((path cs).length + 1) (path cs) = .dir (path (root ++ pkg))) ∨
        (pkg = [] ∧ ∀ x, find stat packageRootFiles ((path cs).length + 1) (path cs) ≠ .dir (path (root ++ x)))) := by
  have hd : pathDir (path (cs ++ [f])) = path cs := by rw [pathDir_path cs f hf, if_neg hne]
  have h1 := C43_find stat repoRootFiles cs hn hne ((path cs).length + 1) (by omega)
  have h2 := C43_find stat packageRootFiles cs hn hne ((path cs).length + 1) (by omega)
  unfold splitFilePath
  dsimp only
  rw [hd]
  revert h1
  cases find stat repoRootFiles ((path cs).length + 1) (path cs) with
  | err e => intro _; exact .inl ⟨rfl, (fun d h => nomatch h)⟩
  | notExist => intro _; exact .inl ⟨rfl, (fun d h => nomatch h)⟩
  | dir d =>
    rintro ⟨a, b, hab, ha, rfl, _, _⟩
    refine .inr ?_
    dsimp only
    -- the package root is `a ++ x`
    have hgo : ∀ x y, cs = a ++ x ++ y → ∀ R : Bytes, R = path (a ++ x) →
        (match relPath (path a) R with
          | none => (([], [], []) : Bytes × Bytes × Bytes)
          | some pkg => match relPath R (path (cs ++ [f])) with
            | none => ([], [], [])
            | some label => (path a, pkg, label)) = (path a, joinWith c!"/" x, joinWith c!"/" (y ++ [f])) := by
      intro x y hxy R hR
      subst hR
      rw [relPath_path]
      dsimp only
      rw [show cs ++ [f] = (a ++ x) ++ (y ++ [f]) by rw [hxy]; simp, relPath_path]
    revert h2
    cases hP : find stat packageRootFiles ((path cs).length + 1) (path cs) with
    | err e =>
      intro _
      exact ⟨a, [], b ++ [f], by rw [hab]; simp, ha, by simp, hgo [] b (by rw [hab]; simp) _ (by simp), rfl, .inr ⟨rfl, (fun d h => nomatch h)⟩⟩
    | notExist =>
      intro _
      exact ⟨a, [], b ++ [f], by rw [hab]; simp, ha, by simp, hgo [] b (by rw [hab]; simp) _ (by simp), rfl, .inr ⟨rfl, (fun d h => nomatch h)⟩⟩
    | dir p =>
      rintro ⟨c, e, hce, hc, rfl, _, _⟩
      dsimp only
      by_cases hpre : hasPrefix (path c) (path a) = true
      · obtain ⟨x, rfl⟩ := path_prefix (hab.symm.trans hce) hpre
        rw [if_pos hpre]
        exact ⟨a, x, e ++ [f], by rw [hce]; simp, ha, by simp, hgo x e hce _ rfl, rfl, .inl rfl⟩
      · rw [if_neg hpre]
        refine ⟨a, [], b ++ [f], by rw [hab]; simp, ha, by simp, hgo [] b (by rw [hab]; simp) _ (by simp), rfl, .inr ⟨rfl, fun x h => hpre ?_⟩⟩
        have : path c = path (a ++ x) := by injection h
        rw [this, path_append]
        unfold hasPrefix
        exact List.isPrefixOf_iff_prefix.mpr ⟨_, rfl⟩

/-- there is a regular file of this name in the directory -/
def HasFile (stat : Bytes → Stat) (d name : Bytes) : Prop := ∃ i, stat (d ++ c!"/" :: name) = .ok i ∧ i.isFile = true

/-- **C43**: what makes a directory the root of a workspace, and of a package -/
theorem C43_markers (stat : Bytes → Stat) (d : Bytes) :
    (Qualifies stat repoRootFiles d ↔
      HasFile stat d b!"WORKSPACE" ∨ HasFile stat d b!"WORKSPACE.bazel" ∨ HasFile stat d b!"MODULE.bazel" ∨
      HasFile stat d b!"REPO.bazel" ∨ HasFile stat d b!".buckconfig" ∨
      ∃ i, stat (d ++ b!"/pants") = .ok i ∧ i.isFile = true ∧ i.isExecutable = true) ∧
    (Qualifies stat packageRootFiles d ↔ HasFile stat d b!"BUILD" ∨ HasFile stat d b!"BUILD.bazel") := by
  constructor <;> simp [Qualifies, HasFile, repoRootFiles, packageRootFiles]

/-! #### cases -/

/-- `/w/WORKSPACE`, `/w/p/BUILD` and `/BUILD` exist -/
def exStat (p : Bytes) : Stat :=
  if p = b!"/w/WORKSPACE" ∨ p = b!"/w/p/BUILD" then .ok ⟨true, false⟩ else .notExist

example : find exStat repoRootFiles 10 b!"/w/p/q" = .dir b!"/w" := by decide
example : splitFilePath exStat b!"/w/p/q/f.bzl" = (b!"/w", b!"p", b!"q/f.bzl") := by decide
example : splitFilePath exStat b!"/x/f.bzl" = ([], [], []) := by decide
example : path [b!"w", b!"p"] = b!"/w/p" := by decide
example : ∀ c ∈ [b!"w", b!"p", b!"q"], Name c := by simp [Name]

end Verif.Props.Wspace
