import Verif.Model.UseRepo
import Verif.Props.BzlmodNames
import Verif.Proofs.Walk
/-
C98: the commands `use_repo_add` and `use_repo_remove`, from their arguments to the file.
-/
namespace Verif.Props.UseRepo
open Verif Verif.Syntax Verif.Walk Verif.Bzlmod Verif.UseRepo
open Verif.Props.Bzlmod hiding UseRepo
open Verif.Props.BzlmodNames (callsIn rulesWhere_eq pick)
open Verif.Props.Walk (occ occ_slots)

/-! ### specification -/

/-- what the command takes for the label of a `.bzl` file: it begins with `@`, or it ends with `//` -/
def LabelLike (a : Bytes) : Prop := (∃ r, a = c!"@" :: r) ∨ ∃ r, a = r ++ b!"//"

/-- What the arguments of the command ask for, in a file with the statements `stmts`: the repos to be added or removed, and the proxies
(the variables that stand for the extension) through which they are used. -/
inductive Asks (stmts : List Expr) : List Bytes → (Bytes → Prop) → List Bytes → Prop
  /-- `<label> <extension> <repos>`: all the proxies of the extension -/
  | extension (a name : Bytes) (repos : List Bytes) : LabelLike a →
    Asks stmts (a :: name :: repos) (fun q => ∃ s ∈ stmts, Creates stmts s q a name false) repos
  /-- `dev <label> <extension> <repos>`: all the proxies of the extension as a development dependency -/
  | dev (a name : Bytes) (repos : List Bytes) : LabelLike a →
    Asks stmts (b!"dev" :: a :: name :: repos) (fun q => ∃ s ∈ stmts, Creates stmts s q a name true) repos
  /-- `<variable> <repos>`, where the variable is (first) assigned an isolated extension: that variable alone -/
  | isolated (v : Bytes) (repos : List Bytes) (pre : List Expr) (s : Expr) (post : List Expr) (b n : Bytes) (args : List Expr) :
    ¬ LabelLike v → (v = b!"dev" → ∀ a ∈ repos.head?, ¬ LabelLike a) → stmts = pre ++ s :: post →
    (∀ t ∈ pre, ∀ b n args, ¬ UseExtension t v b n args) → UseExtension s v b n args → Flag b!"isolate" args →
    Asks stmts (v :: repos) (fun q => q = v) repos
  /-- `<variable> <repos>`, otherwise: all the proxies of the same extension -/
  | shared (v : Bytes) (repos : List Bytes) (pre : List Expr) (s : Expr) (post : List Expr) (b n : Bytes) (args : List Expr) (dev : Bool) :
    ¬ LabelLike v → (v = b!"dev" → ∀ a ∈ repos.head?, ¬ LabelLike a) → stmts = pre ++ s :: post →
    (∀ t ∈ pre, ∀ b n args, ¬ UseExtension t v b n args) → UseExtension s v b n args → ¬ Flag b!"isolate" args →
    (dev = true ↔ Flag b!"dev_dependency" args) →
    Asks stmts (v :: repos) (fun q => ∃ s ∈ stmts, Creates stmts s q b n dev) repos
  /-- `<variable> <repos>`, where no extension is assigned to the variable: no proxies -/
  | unknown (v : Bytes) (repos : List Bytes) :
    ¬ LabelLike v → (v = b!"dev" → ∀ a ∈ repos.head?, ¬ LabelLike a) → (∀ s ∈ stmts, ∀ b n args, ¬ UseExtension s v b n args) →
    Asks stmts (v :: repos) (fun _ => False) repos

/-- the call `use_repo(x)`, which uses no repo -/
inductive Empty : Expr → Prop
  | mk (c : Comments) (i : IdentN) (p : Pos) (x : Expr) (e : EndN) (a b : Bool) : i.name = b!"use_repo" →
    Empty (.call c (.ident i) p [x] e a b)

/-! ### the arguments -/

theorem labelLike_iff (a : Bytes) : isExtensionLabel a = true ↔ LabelLike a := by
  unfold isExtensionLabel LabelLike hasPrefix hasSuffix
  rw [Bool.or_eq_true, List.isPrefixOf_iff_prefix, List.isSuffixOf_iff_suffix]
  constructor
  · rintro (⟨r, h⟩ | ⟨r, h⟩)
    · exact .inl ⟨r, h.symm⟩
    · exact .inr ⟨r, h.symm⟩
  · rintro (⟨r, h⟩ | ⟨r, h⟩)
    · exact .inl ⟨r, h.symm⟩
    · exact .inr ⟨r, h.symm⟩

theorem dev_not_label : ¬ LabelLike b!"dev" := by
  rw [← labelLike_iff]; decide

/-! ### the proxies depend only on the statements that are not `use_repo` calls -/

theorem flatMap_filter {α β} (p : α → Bool) (g : α → List β) (l : List α) (h : ∀ x ∈ l, p x = false → g x = []) :
    (l.filter p).flatMap g = l.flatMap g := by
  induction l with
  | nil => rfl
  | cons x l ih =>
    have ih := ih fun y hy => h y (List.mem_cons_of_mem _ hy)
    cases hp : p x with
    | true => rw [List.filter_cons_of_pos hp, List.flatMap_cons, List.flatMap_cons, ih]
    | false => rw [List.filter_cons_of_neg (by simp [hp]), List.flatMap_cons, h x (List.mem_cons_self ..) hp, ih, List.nil_append]

theorem filterMap_filter' {α β} (p : α → Bool) (g : α → Option β) (l : List α) (h : ∀ x ∈ l, p x = false → g x = none) :
    (l.filter p).filterMap g = l.filterMap g := by
  induction l with
  | nil => rfl
  | cons x l ih =>
    have ih := ih fun y hy => h y (List.mem_cons_of_mem _ hy)
    cases hp : p x with
    | true => rw [List.filter_cons_of_pos hp, List.filterMap_cons, List.filterMap_cons, ih]
    | false => rw [List.filter_cons_of_neg (by simp [hp]), List.filterMap_cons, h x (List.mem_cons_self ..) hp, ih]

theorem occ_stack (v : Expr) : ∀ (stk : List Expr), ∀ q ∈ occ stk v, ∀ x ∈ stk, x ∈ q.1 := by
  induction v using slot_induction with
  | h v ih =>
    intro stk q hq x hx
    rw [occ_slots] at hq
    split at hq
    · cases hq
    · rcases List.mem_cons.mp hq with rfl | hq
      · exact hx
      · obtain ⟨c, hc, hq⟩ := List.mem_flatMap.mp hq
        exact ih c hc _ q hq x (List.mem_append_left _ hx)

theorem callsIn_useRepo {ps : List Bytes} {s : Expr} {args : List Expr} (h : Props.Bzlmod.UseRepo ps s args) :
    callsIn (fun x _ => b!"module" = [] || Edit.kindOf x = b!"module") s = [] := by
  cases h with
  | mk c i q p args e a b hi _ =>
    unfold callsIn
    rw [List.filterMap_eq_nil_iff]
    rintro ⟨stk, y⟩ hq
    rw [occ_slots] at hq
    simp only [Expr.isNil] at hq
    rcases List.mem_cons.mp hq with he | hq
    · cases he
      unfold pick
      simp [Edit.kindOf, hi]
    · obtain ⟨d, _, hq⟩ := List.mem_flatMap.mp hq
      have := occ_stack d _ _ hq (.call c (.ident i) p (.ident q :: args) e a b) (by simp)
      unfold pick
      dsimp only
      split
      · rw [if_pos (List.any_eq_true.mpr ⟨_, this, rfl⟩)]
      · rfl

theorem apparent_others (ps : List Bytes) (stmts : List Expr) : getApparentModuleName (others ps stmts) = getApparentModuleName stmts := by
  unfold getApparentModuleName rules
  rw [rulesWhere_eq, rulesWhere_eq]
  unfold others
  rw [flatMap_filter]
  intro s _ hs
  obtain ⟨args, hu⟩ : ∃ args, Props.Bzlmod.UseRepo ps s args := by simpa using hs
  exact callsIn_useRepo hu

theorem parse_useRepo {ps : List Bytes} {s : Expr} {args : List Expr} (h : Props.Bzlmod.UseRepo ps s args) : parseUseExtension s = {} := by
  cases h; rfl

theorem proxies_others (ps : List Bytes) (stmts : List Expr) (b n : Bytes) (d : Bool) :
    proxies (others ps stmts) b n d = proxies stmts b n d := by
  unfold proxies
  rw [apparent_others]
  unfold others
  rw [filterMap_filter']
  intro s _ hs
  obtain ⟨args, hu⟩ : ∃ args, Props.Bzlmod.UseRepo ps s args := by simpa using hs
  rw [parse_useRepo hu]
  rfl

theorem allProxies_others (ps : List Bytes) (stmts : List Expr) (v : Bytes) (hv : v ≠ []) :
    allProxies (others ps stmts) v = allProxies stmts v := by
  have h : ∀ l, allProxiesLoop (others ps stmts) v (others ps l) = allProxiesLoop stmts v l := by
    intro l
    induction l with
    | nil => rfl
    | cons s l ih =>
      by_cases hu : ∃ args, Props.Bzlmod.UseRepo ps s args
      · have : others ps (s :: l) = others ps l := by unfold others; rw [List.filter_cons_of_neg (by simpa using hu)]
        rw [this, ih]
        obtain ⟨args, hu⟩ := hu
        conv => rhs; unfold allProxiesLoop
        rw [parse_useRepo hu, if_neg fun h => hv h.symm]
      · have : others ps (s :: l) = s :: others ps l := by unfold others; rw [List.filter_cons_of_pos (by simpa using hu)]
        rw [this]
        unfold allProxiesLoop
        dsimp only
        rw [ih, proxies_others]
  exact h stmts

theorem proxies_same {ps : List Bytes} {l l' : List Expr} (h : others ps l = others ps l') (b n : Bytes) (d : Bool) :
    proxies l b n d = proxies l' b n d := by
  rw [← proxies_others ps l, h, proxies_others]

theorem allProxies_same {ps : List Bytes} {l l' : List Expr} (h : others ps l = others ps l') (v : Bytes) (hv : v ≠ []) :
    allProxies l v = allProxies l' v := by
  rw [← allProxies_others ps l v hv, h, allProxies_others ps l' v hv]

/-! ### the command -/

theorem first_unique {α} (Q : α → Prop) (pre pre' post post' : List α) (x x' : α) (h : pre ++ x :: post = pre' ++ x' :: post')
    (h1 : ∀ y ∈ pre, ¬ Q y) (h1' : ∀ y ∈ pre', ¬ Q y) (hx : Q x) (hx' : Q x') : x = x' := by
  induction pre generalizing pre' with
  | nil =>
    cases pre' with
    | nil => cases h; rfl
    | cons y l => cases h; exact absurd hx (h1' _ (List.mem_cons_self ..))
  | cons y l ih =>
    cases pre' with
    | nil => cases h; exact absurd hx' (h1 _ (List.mem_cons_self ..))
    | cons y' l' =>
      rw [List.cons_append, List.cons_append] at h
      exact ih l' (List.cons.inj h).2 (fun z hz => h1 z (List.mem_cons_of_mem _ hz)) (fun z hz => h1' z (List.mem_cons_of_mem _ hz))

/-- the proxies and repos that the code computes; they are the same after the edit -/
theorem args_spec (add : Bool) (f : File) (args : List Bytes) (hm : f.type = .module) (h0 : [] ∉ args) (h2 : 2 ≤ args.length) (P : Bytes → Prop)
    (repos : List Bytes) (h : Asks f.stmts args P repos) :
    ∃ ps, (∀ q, q ∈ ps ↔ P q) ∧ (∀ q ∈ ps, ∃ s ∈ f.stmts, UsesProxy s q) ∧ [] ∉ repos ∧
      (∀ stmts, others ps stmts = others ps f.stmts → cmdUseRepo add { f with stmts } args = useRepoOn add { f with stmts } ps repos) := by
  have hvar : ∀ v repos, ¬ LabelLike v → (v = b!"dev" → ∀ a ∈ repos.head?, ¬ LabelLike a) → args = v :: repos →
      ∀ stmts, cmdUseRepo add { f with stmts } args = useRepoOn add { f with stmts } (allProxies stmts v) repos := by
    rintro v repos hv hd rfl stmts
    unfold cmdUseRepo
    rw [if_neg (by simp [hm])]
    dsimp only
    have hargs : useRepoArgs add { f with stmts } false (v :: repos) = useRepoOn add { f with stmts } (allProxies stmts v) repos := by
      unfold useRepoArgs
      dsimp only
      rw [if_neg (mt (labelLike_iff v).mp hv)]
    split
    · rename_i he
      cases repos with
      | nil => simp at h2
      | cons b l =>
        dsimp only
        rw [if_neg (mt (labelLike_iff b).mp (hd he b (by simp)))]
        exact hargs
    · exact hargs
  have hne : ∀ v repos, args = v :: repos → v ≠ [] ∧ [] ∉ repos := by
    rintro v repos rfl
    exact ⟨fun h => h0 (h ▸ List.mem_cons_self ..), fun h => h0 (List.mem_cons_of_mem _ h)⟩
  cases h with
  | extension a name repos ha =>
    refine ⟨proxies f.stmts a name false, fun q => C44_proxies .., fun q hq => proxies_used hq, fun h => h0 (by simp [h]), fun stmts hs => ?_⟩
    unfold cmdUseRepo
    rw [if_neg (by simp [hm])]
    dsimp only
    rw [if_neg (fun he : a = b!"dev" => dev_not_label (he ▸ ha))]
    unfold useRepoArgs
    dsimp only
    rw [if_pos ((labelLike_iff a).mpr ha), proxies_same hs]
  | dev a name repos ha =>
    refine ⟨proxies f.stmts a name true, fun q => C44_proxies .., fun q hq => proxies_used hq, fun h => h0 (by simp [h]), fun stmts hs => ?_⟩
    unfold cmdUseRepo
    rw [if_neg (by simp [hm])]
    dsimp only
    rw [if_pos rfl, if_pos ((labelLike_iff a).mpr ha)]
    unfold useRepoArgs
    dsimp only
    rw [if_pos ((labelLike_iff a).mpr ha), proxies_same hs]
  | isolated v repos pre s post b n eargs hv hd hst hpre hu hf =>
    obtain ⟨hv0, hr⟩ := hne v repos rfl
    have hall : allProxies f.stmts v = [v] := by
      rcases C44_all_proxies f.stmts v hv0 with ⟨pre', s', post', b', n', args', hst', hpre', hu', h1, _⟩ | ⟨hno, _⟩
      · obtain rfl : s = s' := first_unique (fun t => ∃ b n args, UseExtension t v b n args) pre pre' post post' s s' (hst ▸ hst')
          (fun t ht ⟨b, n, a, h⟩ => hpre t ht b n a h) (fun t ht ⟨b, n, a, h⟩ => hpre' t ht b n a h) ⟨_, _, _, hu⟩ ⟨_, _, _, hu'⟩
        obtain ⟨_, _, _, rfl⟩ := useExtension_fun hu hu'
        exact h1 hf
      · exact absurd hu (hno s (hst ▸ by simp) _ _ _)
    refine ⟨[v], by simp, fun q hq => ⟨s, by simp [hst], ?_⟩, hr, fun stmts hs => ?_⟩
    · rw [List.mem_singleton] at hq
      subst hq
      exact ⟨hv0, .inl ⟨_, _, _, hu⟩⟩
    · rw [hvar v repos hv hd rfl, allProxies_same hs v hv0, hall]
  | shared v repos pre s post b n eargs dev hv hd hst hpre hu hf hdev =>
    obtain ⟨hv0, hr⟩ := hne v repos rfl
    have hall : allProxies f.stmts v = proxies f.stmts b n dev := by
      rcases C44_all_proxies f.stmts v hv0 with ⟨pre', s', post', b', n', args', hst', hpre', hu', _, h1⟩ | ⟨hno, _⟩
      · obtain rfl : s = s' := first_unique (fun t => ∃ b n args, UseExtension t v b n args) pre pre' post post' s s' (hst ▸ hst')
          (fun t ht ⟨b, n, a, h⟩ => hpre t ht b n a h) (fun t ht ⟨b, n, a, h⟩ => hpre' t ht b n a h) ⟨_, _, _, hu⟩ ⟨_, _, _, hu'⟩
        obtain ⟨_, rfl, rfl, rfl⟩ := useExtension_fun hu hu'
        obtain ⟨dev', hd', _, h⟩ := h1 hf
        have : dev = dev' := by
          rw [Bool.eq_iff_iff, hdev, hd']
        rw [this]; exact h
      · exact absurd hu (hno s (hst ▸ by simp) _ _ _)
    refine ⟨proxies f.stmts b n dev, fun q => C44_proxies .., fun q hq => proxies_used hq, hr, fun stmts hs => ?_⟩
    rw [hvar v repos hv hd rfl, allProxies_same hs v hv0, hall]
  | unknown v repos hv hd hno =>
    obtain ⟨hv0, hr⟩ := hne v repos rfl
    have hall : allProxies f.stmts v = [] := by
      rcases C44_all_proxies f.stmts v hv0 with ⟨pre', s', post', b', n', args', hst', _, hu', _⟩ | ⟨_, h⟩
      · exact absurd hu' (hno s' (by simp [hst']) _ _ _)
      · exact h
    refine ⟨[], by simp, by simp, hr, fun stmts hs => ?_⟩
    rw [hvar v repos hv hd rfl, allProxies_same hs v hv0, hall]

/-- **C98**: what the commands do. In a file MODULE.bazel, if the arguments ask for repos through proxies and there are none, the command
fails. Otherwise it gives the file in which exactly the repos that were used before and the given ones are used through the proxies (when
adding), or those that were used before without the given ones (when removing); all the statements that are not `use_repo` calls of the
proxies are as they were, and nothing else of the file is changed. -/
theorem C98_command (add : Bool) (f : File) (args : List Bytes) (hm : f.type = .module) (h0 : [] ∉ args) (h2 : 2 ≤ args.length)
    (P : Bytes → Prop) (repos : List Bytes) (h : Asks f.stmts args P repos) :
    ((∀ q, ¬ P q) → cmdUseRepo add f args = .fails) ∧
    ((∃ q, P q) → ∃ ps f', (∀ q, q ∈ ps ↔ P q) ∧ cmdUseRepo add f args = .done f' ∧
      f'.path = f.path ∧ f'.type = f.type ∧ f'.comments = f.comments ∧
      (∀ r, Used ps f'.stmts r ↔ if add then Used ps f.stmts r ∨ r ∈ repos else Used ps f.stmts r ∧ r ∉ repos) ∧
      others ps f'.stmts = others ps f.stmts) := by
  obtain ⟨ps, hps, hex, hr, hcmd⟩ := args_spec add f args hm h0 h2 P repos h
  have hcmd := hcmd f.stmts rfl
  refine ⟨fun hno => ?_, fun ⟨q, hq⟩ => ?_⟩
  · have : ps = [] := List.eq_nil_iff_forall_not_mem.mpr fun q hq => hno q ((hps q).mp hq)
    rw [hcmd, this]
    rfl
  · obtain ⟨s, hs, hu⟩ := hex q ((hps q).mpr hq)
    obtain ⟨l, hl, h1, h2, _⟩ := edit_spec add f.stmts ps repos hr q ((hps q).mpr hq) s hs hu
    refine ⟨ps, { f with stmts := l }, hps, ?_, rfl, rfl, rfl, h1, h2⟩
    rw [hcmd]
    unfold useRepoOn
    rw [if_neg (List.ne_nil_of_mem ((hps q).mpr hq))]
    dsimp only
    rw [hl]

theorem rearg_self {l : List Expr} {s s' : Expr} (h : Rearg l l s s') : s = s' := by cases h; rfl

open Classical in
/-- **C98**: giving the same command once more changes nothing. -/
theorem C98_idempotent (add : Bool) (f f' : File) (args : List Bytes) (h0 : [] ∉ args) (h2 : 2 ≤ args.length) (P : Bytes → Prop)
    (repos : List Bytes) (h : Asks f.stmts args P repos) (hd : cmdUseRepo add f args = .done f') :
    cmdUseRepo add f' args = .done f' := by
  by_cases hm : f.type = .module
  case neg => unfold cmdUseRepo at hd; rw [if_pos hm] at hd; cases hd
  obtain ⟨ps, hps, hex, hr, hcmd⟩ := args_spec add f args hm h0 h2 P repos h
  have hf := hcmd f.stmts rfl
  have hd' : useRepoOn add f ps repos = .done f' := hf ▸ hd
  unfold useRepoOn at hd'
  split at hd'
  · cases hd'
  · rename_i hne
    obtain ⟨q, hq⟩ := List.exists_mem_of_ne_nil _ hne
    obtain ⟨s, hs, hu⟩ := hex q hq
    obtain ⟨l, hl, h1, h2, h3⟩ := edit_spec add f.stmts ps repos hr q hq s hs hu
    rw [hl] at hd'
    cases hd'
    rw [hcmd l h2]
    unfold useRepoOn
    rw [if_neg hne]
    dsimp only
    have hcalls : useRepos l ps ≠ [] := by
      obtain ⟨t, ht, args, hu⟩ := h3
      obtain ⟨i, hi⟩ := List.mem_iff_getElem?.mp ht
      exact List.ne_nil_of_mem ((mem_useRepos ps l i).mpr ⟨t, args, hi, hu⟩)
    have : editUseRepo add l ps repos = some l := by
      unfold editUseRepo
      dsimp only
      rw [if_neg hcalls]
      cases add with
      | true =>
        obtain ⟨i, t, args, t', _, hi, _, _, _, hre, hset⟩ := C44_add ps l repos h3 hr
        rw [if_pos rfl, hset]
        have hnil : repos.filter (fun r => ¬ Used ps l r) = [] := by
          rw [List.filter_eq_nil_iff]
          intro r hr
          have := (h1 r).mpr (by rw [if_pos rfl]; exact .inr hr)
          simpa using this
        rw [hnil, List.map_nil, List.append_nil] at hre
        rw [← rearg_self hre, set_self hi]
      | false =>
        rw [if_neg (by decide)]
        congr 1
        apply List.ext_getElem?
        intro i
        by_cases hi : ∃ t args, l[i]? = some t ∧ Props.Bzlmod.UseRepo ps t args
        · obtain ⟨t, args, hi, hu⟩ := hi
          obtain ⟨t', ht', hre⟩ := (C44_remove ps l repos hr i).1 t args hi hu
          have hnil : args.filter (fun a => ¬ ∃ r ∈ repos, Exports a r) = args := by
            rw [List.filter_eq_self]
            intro a ha
            rw [decide_eq_true_eq]
            rintro ⟨r, hr, he⟩
            have := (h1 r).mp ⟨t, List.mem_of_getElem? hi, args, hu, a, ha, he⟩
            rw [if_neg (by decide)] at this
            exact this.2 hr
          rw [hnil] at hre
          rw [ht', hi, rearg_self hre]
        · exact (C44_remove ps l repos hr i).2 fun t ht args hu => hi ⟨t, args, ht, hu⟩
    rw [this]

/-- **C98**: the commands are for MODULE.bazel files only. -/
theorem C98_other_files (add : Bool) (f : File) (args : List Bytes) (hm : f.type ≠ .module) : cmdUseRepo add f args = .fails := by
  unfold cmdUseRepo
  rw [if_pos hm]

open Classical in
/-- **C98**: the arguments (at least two, the number that buildozer insists on) always ask for something, with one exception: -/
theorem C98_asks (stmts : List Expr) (args : List Bytes) (h2 : 2 ≤ args.length) :
    (∃ P repos, Asks stmts args P repos) ∨ ∃ a, args = [b!"dev", a] ∧ LabelLike a := by
  match args, h2 with
  | a :: b :: rest, _ =>
    by_cases ha : LabelLike a
    · exact .inl ⟨_, _, .extension a b rest ha⟩
    · by_cases hd : a = b!"dev" ∧ LabelLike b
      · obtain ⟨rfl, hb⟩ := hd
        cases rest with
        | nil => exact .inr ⟨b, rfl, hb⟩
        | cons n repos => exact .inl ⟨_, _, .dev b n repos hb⟩
      · have hd' : a = b!"dev" → ∀ x ∈ (b :: rest).head?, ¬ LabelLike x := by
          intro he x hx hl
          cases hx
          exact hd ⟨he, hl⟩
        left
        by_cases hu : ∃ s ∈ stmts, ∃ b n args, UseExtension s a b n args
        · obtain ⟨pre, s, post, hst, hpre, b', n, args, hu⟩ : ∃ pre s post, stmts = pre ++ s :: post ∧
              (∀ t ∈ pre, ∀ b n args, ¬ UseExtension t a b n args) ∧ ∃ b n args, UseExtension s a b n args := by
            clear hd hd' 
            induction stmts with
            | nil => obtain ⟨_, hs, _⟩ := hu; cases hs
            | cons s l ih =>
              by_cases h : ∃ b n args, UseExtension s a b n args
              · exact ⟨[], s, l, rfl, by simp, h⟩
              · obtain ⟨pre, t, post, hl, hpre, ht⟩ := ih (by
                  obtain ⟨t, ht, h'⟩ := hu
                  rcases List.mem_cons.mp ht with rfl | ht
                  · exact absurd h' h
                  · exact ⟨t, ht, h'⟩)
                refine ⟨s :: pre, t, post, by rw [hl]; rfl, fun u hu b n args he => ?_, ht⟩
                rcases List.mem_cons.mp hu with rfl | hu
                · exact h ⟨b, n, args, he⟩
                · exact hpre u hu b n args he
          by_cases hf : Flag b!"isolate" args
          · exact ⟨_, _, .isolated a (b :: rest) pre s post b' n args ha hd' hst hpre hu hf⟩
          · exact ⟨_, _, .shared a (b :: rest) pre s post b' n args (decide (Flag b!"dev_dependency" args)) ha hd' hst hpre hu hf
              (by rw [decide_eq_true_eq])⟩
        · exact ⟨_, _, .unknown a (b :: rest) ha hd' fun s hs b n args h => hu ⟨s, hs, b, n, args, h⟩⟩

/-- **C98**: `dev` and a label alone, without the name of the extension, crash buildozer (an index out of range); that is the only way. -/
theorem C98_panics (add : Bool) (f : File) (args : List Bytes) (h0 : [] ∉ args) (h2 : 2 ≤ args.length) :
    cmdUseRepo add f args = .panics ↔ f.type = .module ∧ ∃ a, args = [b!"dev", a] ∧ LabelLike a := by
  constructor
  · intro h
    by_cases hm : f.type = .module
    · refine ⟨hm, ?_⟩
      rcases C98_asks f.stmts args h2 with ⟨P, repos, ha⟩ | h'
      · obtain ⟨h3, h4⟩ := C98_command add f args hm h0 h2 P repos ha
        by_cases hq : ∃ q, P q
        · obtain ⟨_, _, _, hd, _⟩ := h4 hq
          rw [h] at hd; cases hd
        · rw [h3 fun q hP => hq ⟨q, hP⟩] at h; cases h
      · exact h'
    · rw [C98_other_files add f args hm] at h; cases h
  · rintro ⟨hm, a, rfl, ha⟩
    unfold cmdUseRepo
    rw [if_neg (by simp [hm])]
    dsimp only
    rw [if_pos rfl, if_pos ((labelLike_iff a).mpr ha)]
    unfold useRepoArgs
    dsimp only
    rw [if_pos ((labelLike_iff a).mpr ha)]

/-! ### empty calls -/

theorem empty_iff (s : Expr) : isEmptyUseRepoCall s = true ↔ Empty s := by
  constructor
  · intro h
    cases s
    case call c x p l e a b =>
      cases x
      case ident i =>
        simp only [isEmptyUseRepoCall, Bool.and_eq_true, decide_eq_true_eq] at h
        match l, h with
        | [x], h => exact .mk c i p x e a b h.1
      all_goals cases h
    all_goals cases h
  · rintro ⟨c, i, p, x, e, a, b, hi⟩
    simp [isEmptyUseRepoCall, hi]

open Classical in
/-- **C98**: before the file is written, the `use_repo` calls without any repo are removed, and nothing else: in MODULE.bazel files only.
The repos that are used, through whatever proxies, are the same. -/
theorem C98_empty_calls (f : File) :
    (f.type ≠ .module → removeEmptyUseRepoCalls f = f) ∧
    (f.type = .module → removeEmptyUseRepoCalls f = { f with stmts := f.stmts.filter fun s => decide (¬ Empty s) }) ∧
    ∀ ps r, Used ps (removeEmptyUseRepoCalls f).stmts r ↔ Used ps f.stmts r := by
  have h1 : f.type ≠ .module → removeEmptyUseRepoCalls f = f := fun h => by unfold removeEmptyUseRepoCalls; rw [if_pos h]
  have h2 : f.type = .module → removeEmptyUseRepoCalls f = { f with stmts := f.stmts.filter fun s => decide (¬ Empty s) } := by
    intro h
    unfold removeEmptyUseRepoCalls
    rw [if_neg (by simp [h])]
    congr 1
    apply List.filter_congr
    intro s _
    rw [Bool.eq_iff_iff, decide_eq_true_eq, ← empty_iff]
    cases isEmptyUseRepoCall s <;> simp
  refine ⟨h1, h2, fun ps r => ?_⟩
  by_cases hm : f.type = .module
  · rw [h2 hm]
    dsimp only
    constructor
    · rintro ⟨s, hs, h⟩
      exact ⟨s, (List.mem_filter.mp hs).1, h⟩
    · rintro ⟨s, hs, args, hu, a, ha, he⟩
      refine ⟨s, List.mem_filter.mpr ⟨hs, ?_⟩, args, hu, a, ha, he⟩
      rw [decide_eq_true_eq]
      intro hem
      cases hu
      cases hem
      cases ha
  · rw [h1 hm]

/-! ### cases -/

/-- the file of C44 as a MODULE.bazel -/
def exModule : File := { type := .module, stmts := exFile }

/-- `ext x` asks for `x` through the proxies of the extension of `ext`, and the file is changed so that it is used -/
theorem C98_example :
    (∃ P, Asks exModule.stmts [b!"ext", b!"x"] P [b!"x"] ∧ P b!"ext") ∧
    cmdUseRepo true exModule [b!"ext", b!"x"] = .done { exModule with stmts :=
      [exFile[0], .call {} (.ident { name := b!"use_repo" }) {} [.ident { name := b!"ext" }, .string { value := b!"a" },
        .assign {} (.ident { name := b!"b" }) {} b!"=" false (.string { value := b!"c" }), .string { value := b!"x" }] {} false false] } := by
  have hu : UseExtension exFile[0] b!"ext" b!"//:e.bzl" b!"e" [] := .mk _ _ { name := b!"use_extension" } _ _ _ _ _ { value := b!"//:e.bzl" } { value := b!"e" } _ _ _ _ rfl
  have hnf : ∀ n, ¬ Flag n [] := by rintro n ⟨_, _, _, _, _, _, h, _⟩; cases h
  have hdev : (false = true) ↔ Flag b!"dev_dependency" [] := ⟨(fun h => nomatch h), fun h => absurd h (hnf _)⟩
  refine ⟨⟨_, .shared b!"ext" _ [] exFile[0] [exFile[1]] b!"//:e.bzl" b!"e" [] false ?_ (fun h => nomatch h) rfl (by simp) hu (hnf _) hdev,
    exFile[0], by simp [exModule], b!"//:e.bzl", [], hu, (fun h => nomatch h), hnf _, hdev, rfl⟩, rfl⟩
  rw [← labelLike_iff]; decide

/-- **C98**, what is not so: the label of a `.bzl` file of the module itself, `//:e.bzl`, is documented as an argument but is taken for the
name of a variable, and the command fails; written as `@//:e.bzl` it works. (The code tests for the suffix `//` where the prefix is meant.) -/
theorem C98_own_label_witness :
    cmdUseRepo true exModule [b!"//:e.bzl", b!"e", b!"x"] = .fails ∧ ¬ LabelLike b!"//:e.bzl" ∧
    ∃ f, cmdUseRepo true exModule [b!"@//:e.bzl", b!"e", b!"x"] = .done f := by
  refine ⟨rfl, ?_, _, rfl⟩
  rw [← labelLike_iff]; decide

/-- `use_repo_remove ext a c` leaves `use_repo(ext)`, which is then removed -/
theorem C98_remove_example :
    ∃ f, cmdUseRepo false exModule [b!"ext", b!"a", b!"c"] = .done f ∧ (removeEmptyUseRepoCalls f).stmts = [exFile[0]] :=
  ⟨_, rfl, rfl⟩

end Verif.Props.UseRepo
