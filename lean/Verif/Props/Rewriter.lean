import Verif.Model.Rewriter
import Verif.Props.FixLabels
/-
C25: disabled and out-of-scope rewrites never run; what is marked to be left alone is left alone.
-/
namespace Verif.Props.Rewriter
open Verif Verif.Syntax Verif.Walk Verif.Rewrite

/-! ### Specification: which rewrites apply, from the documentation -/

/-- the rewrites, in the order in which they are applied -/
def order : List Bytes := [b!"removeParens", b!"callsort", b!"label", b!"listsort", b!"multiplus", b!"loadTop",
  b!"sameOriginLoad", b!"sortLoadStatements", b!"loadsort", b!"useRepoPositionalsSort", b!"formatdocstrings",
  b!"reorderarguments", b!"editoctal", b!"editfloat", b!"collapseEmpty"]

/-- rewrites that are only meant for BUILD, WORKSPACE and MODULE files -/
def buildOnly : List Bytes := [b!"removeParens", b!"callsort", b!"label", b!"multiplus"]

/-- Is a rewrite meant for files of this type? -/
def Suits (name : Bytes) (t : FileType) : Prop :=
  (name ∈ buildOnly → t = .build ∨ t = .workspace ∨ t = .module) ∧
  (name = b!"useRepoPositionalsSort" → t = .module)

instance (name : Bytes) (t : FileType) : Decidable (Suits name t) := inferInstanceAs (Decidable (_ ∧ _))

/-- An explicit set of rewrites is obeyed to the letter; otherwise every rewrite that suits the file and is not disabled
applies. -/
def Applies (w : Config) (t : FileType) (name : Bytes) : Prop :=
  match w.rewriteSet with
  | some set => name ∈ set
  | none => name ∉ w.disableRewrites ∧ Suits name t

instance (w : Config) (t : FileType) (name : Bytes) : Decidable (Applies w t name) := by
  unfold Applies; split <;> infer_instance

/-- the effect of the rewrite called `name` -/
def effect (w : Config) (name : Bytes) (f : File) : File :=
  match (rewrites w).find? (fun r => r.name == name) with
  | some r => r.fn f
  | none => f

/-! ### Proofs -/

theorem any_beq (l : List Bytes) (x : Bytes) : (l.any (· == x) = true) ↔ x ∈ l := by
  induction l with
  | nil => simp
  | cons a l ih => simp only [List.any_cons, Bool.or_eq_true, ih, beq_iff_eq, List.mem_cons]
                   exact or_congr_left (eq_comm)

theorem onTree_type (g : Expr → Expr) (f : File) : (onTree g f).type = f.type := by
  unfold onTree; split <;> rfl

/-- the rewrites never change the type of a file -/
theorem type_kept (w : Config) : ∀ r ∈ rewrites w, ∀ f, (r.fn f).type = f.type := by
  intro r hr f
  simp only [rewrites, List.mem_cons, List.not_mem_nil, or_false] at hr
  rcases hr with h | h | h | h | h | h | h | h | h | h | h | h | h | h | h <;> subst h
  case inr.inr.inl => show (fixLabels w.labels f).type = f.type; unfold fixLabels; split <;> rfl
  case inr.inr.inr.inr.inr.inl => show (moveLoadOnTop f).type = f.type; unfold moveLoadOnTop; split; rfl; split <;> rfl
  case inr.inr.inr.inr.inr.inr.inl => rfl
  case inr.inr.inr.inr.inr.inr.inr.inl => show (sortLoadStatements f).type = f.type; unfold sortLoadStatements; split <;> rfl
  all_goals exact onTree_type _ f

theorem meta_table : ∀ e ∈ [(b!"removeParens", Scope.build), (b!"callsort", .build), (b!"label", .build), (b!"listsort", .both),
    (b!"multiplus", .build), (b!"loadTop", .both), (b!"sameOriginLoad", .both), (b!"sortLoadStatements", .both),
    (b!"loadsort", .both), (b!"useRepoPositionalsSort", .moduleOnly), (b!"formatdocstrings", .both),
    (b!"reorderarguments", .both), (b!"editoctal", .both), (b!"editfloat", .both), (b!"collapseEmpty", .both)],
    ∀ t ∈ [FileType.default, .build, .workspace, .bzl, .module], (e.2.covers t = true ↔ Suits e.1 t) := by decide

theorem suits_iff (w : Config) (r : Entry) (hr : r ∈ rewrites w) (t : FileType) :
    r.scope.covers t = true ↔ Suits r.name t := by
  have hm : (r.name, r.scope) ∈ (rewrites w).map (fun r => (r.name, r.scope)) := List.mem_map.mpr ⟨r, hr, rfl⟩
  exact meta_table (r.name, r.scope) hm t (by cases t <;> simp)

theorem shouldRun_iff (w : Config) (f : File) (r : Entry) (hr : r ∈ rewrites w) :
    shouldRun w f r = true ↔ Applies w f.type r.name := by
  cases h : w.rewriteSet with
  | none =>
    simp only [shouldRun, Applies, h]
    simp only [Bool.and_eq_true, Bool.not_eq_true', disabled, suits_iff w r hr, ← Bool.not_eq_true, any_beq]
  | some set =>
    simp only [shouldRun, Applies, h]
    simp only [rewriteSetContains, any_beq]

theorem find_of_nodup (t : List Entry) (h : (t.map (·.name)).Nodup) : ∀ r ∈ t, t.find? (fun x => x.name == r.name) = some r := by
  induction t with
  | nil => intro r hr; cases hr
  | cons x t ih =>
    intro r hr
    rw [List.map_cons, List.nodup_cons] at h
    rcases List.mem_cons.mp hr with e | hr
    · subst e; simp
    · have : x.name ≠ r.name := fun e => h.1 (e ▸ List.mem_map.mpr ⟨r, hr, rfl⟩)
      rw [List.find?_cons_of_neg (by simpa using this)]
      exact ih h.2 r hr

theorem order_nodup : order.Nodup := by decide

theorem effect_eq (w : Config) : ∀ r ∈ rewrites w, effect w r.name = r.fn := by
  intro r hr
  funext f
  unfold effect
  rw [find_of_nodup (rewrites w) order_nodup r hr]

theorem names_eq (w : Config) : (rewrites w).map (·.name) = order := rfl

theorem run_sub (w : Config) (t : List Entry) : (∀ r ∈ t, r ∈ rewrites w) → ∀ f : File,
    runRewrites w t f = ((t.map (·.name)).filter (fun n => decide (Applies w f.type n))).foldl (fun f n => effect w n f) f := by
  induction t with
  | nil => intro _ f; rfl
  | cons r t ih =>
    intro ht f
    have hr := ht r (by simp)
    have hiff := shouldRun_iff w f r hr
    simp only [runRewrites, List.foldl_cons, List.map_cons]
    by_cases h : Applies w f.type r.name
    · rw [if_pos (hiff.mpr h), List.filter_cons_of_pos (by simpa using h), List.foldl_cons, effect_eq w r hr]
      have := ih (fun x hx => ht x (by simp [hx])) (r.fn f)
      rw [type_kept w r hr f] at this
      exact this
    · rw [if_neg (fun hc => h (hiff.mp hc)), List.filter_cons_of_neg (by simpa using h)]
      exact ih (fun x hx => ht x (by simp [hx])) f

/-- **C25.** Rewriting a file is: apply, in the documented order, exactly the rewrites that apply to it. -/
theorem C25_exact (w : Config) (f : File) :
    rewrite w f = (order.filter (fun n => decide (Applies w f.type n))).foldl (fun f n => effect w n f) f := by
  rw [rewrite, run_sub w (rewrites w) (fun _ h => h), names_eq]

/-- **C25 (nothing applies).** With an empty explicit set, or with everything disabled, the file is returned unchanged. -/
theorem C25_none (w : Config) (f : File) (h : ∀ n ∈ order, ¬ Applies w f.type n) : rewrite w f = f := by
  rw [C25_exact]
  have : order.filter (fun n => decide (Applies w f.type n)) = [] := by
    apply List.filter_eq_nil_iff.mpr
    intro n hn
    simpa using h n hn
  rw [this]; rfl

theorem C25_empty_set (w : Config) (f : File) (h : w.rewriteSet = some []) : rewrite w f = f :=
  C25_none w f (fun n _ => by simp [Applies, h])

theorem C25_all_disabled (w : Config) (f : File) (h : w.rewriteSet = none) (hd : ∀ n ∈ order, n ∈ w.disableRewrites) :
    rewrite w f = f :=
  C25_none w f (fun n hn => by simp [Applies, h, hd n hn])

theorem foldl_congr_fun {α β : Type} (F G : α → β → β) (l : List α) : ∀ (g : β), (∀ n ∈ l, F n = G n) →
    l.foldl (fun f n => F n f) g = l.foldl (fun f n => G n f) g := by
  induction l with
  | nil => intro g _; rfl
  | cons a l ih => intro g hl; rw [List.foldl_cons, List.foldl_cons, hl a (by simp)]; exact ih _ (fun n hn => hl n (by simp [hn]))

theorem foldl_filter_effect (w w' : Config) (f : File) (l : List Bytes)
    (h : ∀ n ∈ l, (Applies w f.type n ↔ Applies w' f.type n))
    (he : ∀ n ∈ l, Applies w f.type n → effect w n = effect w' n) :
    (l.filter (fun n => decide (Applies w f.type n))).foldl (fun f n => effect w n f) f
      = (l.filter (fun n => decide (Applies w' f.type n))).foldl (fun f n => effect w' n f) f := by
  rw [← List.filter_congr (fun n hn => decide_eq_decide.mpr (h n hn))]
  exact foldl_congr_fun (effect w) (effect w') _ f (fun n hn => he n (List.mem_filter.mp hn).1 (of_decide_eq_true (List.mem_filter.mp hn).2))

/-- **C25 (independent).** A rewrite that does not apply has no influence: if two configurations agree on what applies to this
file and on the effect of what applies, they give the same result. -/
theorem C25_depends_only_on_applicable (w w' : Config) (f : File)
    (h : ∀ n ∈ order, (Applies w f.type n ↔ Applies w' f.type n))
    (he : ∀ n ∈ order, Applies w f.type n → effect w n = effect w' n) : rewrite w f = rewrite w' f :=
  (C25_exact w f).trans ((foldl_filter_effect w w' f order h he).trans (C25_exact w' f).symm)

/-! #### Leave-alone comments -/

/-- a comment of the node contains `buildifier: leave-alone`, in any case -/
def LeftAlone (v : Expr) : Prop :=
  ∃ c ∈ v.comments.before ++ v.comments.after ++ v.comments.suffix, contains (toLower c.token) b!"buildifier: leave-alone" = true

theorem leaveAlone1_iff (v : Expr) : leaveAlone1 v = true ↔ LeftAlone v := by
  simp only [leaveAlone1, hasComment, LeftAlone, Bool.or_eq_true, List.any_eq_true, List.mem_append]
  constructor
  · rintro ((⟨c, h, k⟩ | ⟨c, h, k⟩) | ⟨c, h, k⟩)
    · exact ⟨c, .inl (.inl h), k⟩
    · exact ⟨c, .inl (.inr h), k⟩
    · exact ⟨c, .inr h, k⟩
  · rintro ⟨c, (h | h) | h, k⟩
    · exact .inl (.inl ⟨c, h, k⟩)
    · exact .inl (.inr ⟨c, h, k⟩)
    · exact .inr ⟨c, h, k⟩

theorem leaveAlone_iff (stk : List Expr) (v : Expr) : leaveAlone stk v = true ↔ ∃ x ∈ stk ++ [v], LeftAlone x := by
  simp only [leaveAlone, Bool.or_eq_true, List.any_eq_true, leaveAlone1_iff, List.mem_append, List.mem_singleton]
  constructor
  · rintro (⟨x, h, k⟩ | h)
    · exact ⟨x, .inl h, k⟩
    · exact ⟨v, .inr rfl, h⟩
  · rintro ⟨x, h | rfl, k⟩
    · exact .inl ⟨x, h, k⟩
    · exact .inr k

/-- a callback that respects leave-alone comments leaves the whole subtree below such a comment alone -/
theorem shielded (g : Expr → List Expr → Expr) (hg : ∀ v stk, (∃ x ∈ stk ++ [v], LeftAlone x) → g v stk = v) :
    ∀ n v stk, treeOk v → (∃ x ∈ stk ++ [v], LeftAlone x) → mutN g n v stk = v := by
  intro n
  induction n with
  | zero => intro v stk _ _; rfl
  | succ n ih =>
    intro v stk hok h
    rw [mutN_succ]
    split
    · rfl
    · have h2 := (treeOk_iff v).mp hok
      rw [hg v stk h]
      have : (slots v).map (fun x => mutN g n x (stk ++ [v])) = (slots v).map id :=
        List.map_congr_left (fun x hx => ih x _ (h2.2 x hx) (by
          obtain ⟨y, hy, k⟩ := h
          exact ⟨y, List.mem_append.mpr (.inl hy), k⟩))
      rw [this, List.map_id, withSlots_slots v h2.1]

theorem sortCall_protected (w : Config) (v : Expr) (stk : List Expr) (h : ∃ x ∈ stk ++ [v], LeftAlone x) : sortCall w v stk = v := by
  unfold sortCall; split
  · rw [if_pos ((leaveAlone_iff _ _).mpr h)]
  · rfl

theorem fixCall_protected (w : LabelConfig) (d : Bytes) (v : Expr) (stk : List Expr) (h : ∃ x ∈ stk ++ [v], LeftAlone x) :
    fixCall w d v stk = v := by
  unfold fixCall; split
  · rw [if_pos ((leaveAlone_iff _ _).mpr h)]
  · rfl

/-- the statements of a file after an in-place traversal whose callback keeps the file node -/
theorem onTree_stmts (g : Expr → List Expr → Expr) (hg : ∀ c l, g (.file c l) [] = .file c l) (f : File) :
    ∃ n, (onTree (walkMut g) f).stmts = f.stmts.map (fun v => mutN g n v [.file f.comments f.stmts]) := by
  have e : ∃ n, walkMut g (.file f.comments f.stmts) =
      .file f.comments (f.stmts.map (fun v => mutN g n v [.file f.comments f.stmts])) := by
    obtain ⟨n, hn⟩ : ∃ n, size (.file f.comments f.stmts) = n + 1 :=
      ⟨size (.file f.comments f.stmts) - 1, by have := size_pos (.file f.comments f.stmts); omega⟩
    refine ⟨n, ?_⟩
    rw [walkMut_eq, hn, mutN_succ, hg]
    rfl
  obtain ⟨n, e⟩ := e
  refine ⟨n, ?_⟩
  unfold onTree
  rw [show f.toExpr = .file f.comments f.stmts from rfl, e]

/-- the two rewrites that reorder or respell the arguments of calls respect leave-alone comments -/
theorem stmts_protected (g : Expr → List Expr → Expr) (hf : ∀ c l, g (.file c l) [] = .file c l)
    (hg : ∀ v stk, (∃ x ∈ stk ++ [v], LeftAlone x) → g v stk = v) (f : File) (i : Nat) (v : Expr) (hv : f.stmts[i]? = some v)
    (hok : treeOk v) (h : LeftAlone v ∨ LeftAlone (.file f.comments f.stmts)) :
    (onTree (walkMut g) f).stmts[i]? = some v := by
  obtain ⟨n, e⟩ := onTree_stmts g hf f
  rw [e, List.getElem?_map, hv, Option.map_some, shielded g hg n v _ hok]
  rcases h with h | h
  · exact ⟨v, by simp, h⟩
  · exact ⟨_, List.mem_append.mpr (.inl (List.mem_singleton.mpr rfl)), h⟩

/-- **C25 (leave alone, call arguments).** A statement with a leave-alone comment, or any statement of a file with one, is not
touched by argument sorting. -/
theorem C25_leave_alone_callsort (w : Config) (f : File) (i : Nat) (v : Expr) (hv : f.stmts[i]? = some v) (hok : treeOk v)
    (h : LeftAlone v ∨ LeftAlone (.file f.comments f.stmts)) : (sortCallArgs w f).stmts[i]? = some v :=
  stmts_protected (sortCall w) (fun _ _ => rfl) (sortCall_protected w) f i v hv hok h

/-- **C25 (leave alone, labels).** The same for the label rewrite. -/
theorem C25_leave_alone_label (w : LabelConfig) (f : File) (i : Nat) (v : Expr) (hv : f.stmts[i]? = some v) (hok : treeOk v)
    (h : LeftAlone v ∨ LeftAlone (.file f.comments f.stmts)) : (fixLabels w f).stmts[i]? = some v :=
  stmts_protected (fixCall w (pathDir f.path)) (fun _ _ => rfl) (fixCall_protected w _) f i v hv hok h

/-- **C25 (leave alone, anywhere).** At any depth: the subtree below a commented node is not touched. -/
theorem C25_leave_alone_subtree (w : Config) (n : Nat) (v : Expr) (stk : List Expr) (hok : treeOk v)
    (h : ∃ x ∈ stk ++ [v], LeftAlone x) :
    mutN (sortCall w) n v stk = v ∧ ∀ d, mutN (fixCall w.labels d) n v stk = v :=
  ⟨shielded _ (sortCall_protected w) n v stk hok h, fun d => shielded _ (fixCall_protected w.labels d) n v stk hok h⟩

/-! A case where the hypotheses hold and the comment matters: `f(b = 1, a = 2)` with and without the comment. -/

def exCall (c : Comments) : Expr :=
  .call c (.ident { name := b!"f" }) {} [.assign {} (.ident { name := b!"b" }) {} b!"=" false (.literal {} {} b!"1"),
    .assign {} (.ident { name := b!"a" }) {} b!"=" false (.literal {} {} b!"2")] {} false false
def exFile (c : Comments) : File := { type := .build, stmts := [exCall c] }
def exConf : Config := ⟨none, ⟨fun _ => false, fun _ => false, false, false⟩, fun _ => false, fun _ => false, fun _ => false, fun _ => none, [], [], false⟩
def exComment : Comments := { before := [{ token := b!"# Buildifier: leave-alone" }] }

theorem exOk (c : Comments) : treeOk (exCall c) := by
  have leaf : ∀ v, slots v = [] → lenOk v → treeOk v := fun v h k => (treeOk_iff v).mpr ⟨k, by simp [h]⟩
  have arg : ∀ n t, treeOk (.assign {} (.ident { name := n }) {} b!"=" false (.literal {} {} t)) := fun n t =>
    (treeOk_iff _).mpr ⟨trivial, by
      intro x hx
      rcases List.mem_cons.mp hx with h | hx
      · rw [h]; exact leaf _ rfl trivial
      · rw [List.mem_singleton.mp hx]; exact leaf _ rfl trivial⟩
  refine (treeOk_iff _).mpr ⟨trivial, ?_⟩
  intro x hx
  rcases List.mem_cons.mp hx with h | hx
  · rw [h]; exact leaf _ rfl trivial
  · rcases List.mem_cons.mp hx with h | hx
    · rw [h]; exact arg _ _
    · rw [List.mem_singleton.mp hx]; exact arg _ _

example : (sortCallArgs exConf (exFile exComment)).stmts[(0:Nat)]? = some (exCall exComment) :=
  C25_leave_alone_callsort exConf (exFile exComment) 0 (exCall exComment) rfl (exOk _)
    (.inl ⟨_, List.mem_cons_self .., by decide⟩)
example : (sortCallArgs exConf (exFile {})).stmts[(0:Nat)]? ≠ some (exCall {}) := by
  intro h
  have e : (sortCallArgs exConf (exFile {})).stmts[(0:Nat)]? = some (.call {} (.ident { name := b!"f" }) {}
    [.assign {} (.ident { name := b!"a" }) {} b!"=" false (.literal {} {} b!"2"),
     .assign {} (.ident { name := b!"b" }) {} b!"=" false (.literal {} {} b!"1")] {} false false) := rfl
  rw [e] at h
  simp [exCall] at h

end Verif.Props.Rewriter
