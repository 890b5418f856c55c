import Verif.Model.Loads
/-
C17: merging load statements of the same module.
-/
namespace Verif.Props.LoadMerge
open Verif Verif.Syntax Verif.Walk Verif.Rewrite

/-! ### Specification -/

/-- the bindings a statement makes: module, original symbol, local name -/
def bindings1 : Expr → List (Bytes × Bytes × Bytes)
  | .load _ _ m f t _ _ => (f.zip t).map fun p => (m.value, p.1.name, p.2.name)
  | _ => []

/-- the bindings made by the load statements of a file, in order -/
def bindings (l : List Expr) : List (Bytes × Bytes × Bytes) := l.flatMap bindings1

/-- every load has as many local as original names (the parser only builds such loads) -/
def WF (l : List Expr) : Prop :=
  ∀ e ∈ l, match e with | .load _ _ _ f t _ _ => f.length = t.length | _ => True

/-- the load asks not to be merged -/
def pinned (e : Expr) : Bool := hasComment e b!"disable=same-origin-load"

/-- `e'` is what merging may make of the statement `e`: the same statement; or, for a load, nothing, or the same load with
more symbols at the end -/
inductive MergeOf : Expr → Expr → Prop
  | same (e) : MergeOf e e
  | gone (e) : isLoad e = true → MergeOf e .nil
  | more (c p m f t r fc fs ts) : MergeOf (.load c p m f t r fc) (.load c p m (f ++ fs) (t ++ ts) r fc)

/-! ### Proofs -/

theorem compressStep_length (out : List Expr) (e : Expr) : (compressStep out e).length = out.length + 1 := by
  unfold compressStep
  split
  · split
    · simp
    · split <;> simp
  · simp

theorem isLoad_iff_module (e : Expr) : isLoad e = true ↔ ∃ m, loadModule e = some m := by
  cases e <;> simp [isLoad, loadModule]

/-- what one iteration does -/
theorem compressStep_cases (out : List Expr) (e : Expr) :
    (compressStep out e = out ++ [e] ∧
      (isLoad e = true → (∃ i x, out.findIdx? (fun y => loadModule y == loadModule e) = some i ∧ out[i]? = some x ∧
        (pinned x = true ∨ pinned e = true)) ∨ ∀ x ∈ out, loadModule x ≠ loadModule e)) ∨
    (∃ c p m f t r fc i, e = .load c p m f t r fc ∧
      out.findIdx? (fun y => loadModule y == loadModule e) = some i ∧
      compressStep out e = out.modify i (appendSyms f t) ++ [.nil] ∧ pinned e = false ∧
      ∀ x, out[i]? = some x → pinned x = false) := by
  cases e with
  | load c p m f t r fc =>
    show (compressStep out (.load c p m f t r fc) = _ ∧ _) ∨ _
    cases h : out.findIdx? (fun y => loadModule y == some m.value) with
    | none =>
      left
      refine ⟨by simp only [compressStep, h], fun _ => Or.inr ?_⟩
      intro x hx
      rw [List.findIdx?_eq_none_iff] at h
      have := h x hx
      simpa [loadModule] using this
    | some i =>
      have hi := (List.findIdx?_eq_some_iff_getElem.mp h)
      obtain ⟨hi1, hi2⟩ := hi
      have hget : out[i]? = some out[i] := List.getElem?_eq_getElem hi1
      have hgetD : out.getD i .nil = out[i] := by simp [List.getD, hget]
      by_cases hc : (hasComment (out.getD i .nil) b!"disable=same-origin-load"
          || hasComment (.load c p m f t r fc) b!"disable=same-origin-load") = true
      · left
        refine ⟨by simp only [compressStep, h, hc, if_true], fun _ => Or.inl ⟨i, _, h, hget, ?_⟩⟩
        rw [hgetD] at hc
        simpa [pinned] using hc
      · right
        refine ⟨c, p, m, f, t, r, fc, i, rfl, h, ?_, ?_, ?_⟩
        · simp only [compressStep, h]
          rw [if_neg hc]
        · simp only [Bool.not_eq_true, Bool.or_eq_false_iff] at hc
          exact hc.2
        · intro x hx
          rw [hget] at hx
          simp only [Option.some.injEq] at hx
          rw [← hx, ← hgetD]
          simp only [Bool.not_eq_true, Bool.or_eq_false_iff] at hc
          exact hc.1
  | _ => left; exact ⟨rfl, fun h => by simp [isLoad] at h⟩

theorem modify_split {α} (l : List α) (i : Nat) (g : α → α) (x : α) (h : l[i]? = some x) :
    ∃ a b, l = a ++ x :: b ∧ l.modify i g = a ++ g x :: b ∧ a.length = i := by
  have hi : i < l.length := (List.getElem?_eq_some_iff.mp h).1
  have hx : l[i] = x := (List.getElem?_eq_some_iff.mp h).2
  refine ⟨l.take i, l.drop (i+1), ?_, ?_, by simp; omega⟩
  · rw [← hx]; simp
  · rw [List.modify_eq_take_cons_drop hi, hx]

theorem found_load {out : List Expr} {i : Nat} {m : Bytes}
    (h : out.findIdx? (fun y => loadModule y == some m) = some i) :
    ∃ c p m' f t r fc, out[i]? = some (.load c p m' f t r fc) ∧ m'.value = m := by
  obtain ⟨hi1, hi2, _⟩ := List.findIdx?_eq_some_iff_getElem.mp h
  have hget : out[i]? = some out[i] := List.getElem?_eq_getElem hi1
  revert hi2
  rw [hget]
  generalize out[i] = x
  intro hi2
  cases x <;> simp [loadModule] at hi2
  exact ⟨_, _, _, _, _, _, _, rfl, hi2⟩

theorem step_wf (out : List Expr) (e : Expr) (h : WF out) (he : WF [e]) : WF (compressStep out e) := by
  rcases compressStep_cases out e with ⟨h1, _⟩ | ⟨c, p, m, f, t, r, fc, i, rfl, hf, h1, _⟩
  · rw [h1]
    intro x hx
    rcases List.mem_append.mp hx with hx | hx
    · exact h x hx
    · exact he x hx
  · obtain ⟨c', p', m', f', t', r', fc', hg, hm⟩ := found_load hf
    obtain ⟨a, b, e1, e2, _⟩ := modify_split out i (appendSyms f t) _ hg
    rw [h1, e2]
    have hl : f.length = t.length := he (.load c p m f t r fc) (by simp)
    have hl' : f'.length = t'.length := h (.load c' p' m' f' t' r' fc') (by rw [e1]; simp)
    intro x hx
    simp only [List.mem_append, List.mem_cons, List.not_mem_nil, or_false] at hx
    rcases hx with (hx | hx | hx) | hx
    · exact h x (by rw [e1]; simp [hx])
    · subst hx; simp only [appendSyms, List.length_append]; omega
    · exact h x (by rw [e1]; simp [hx])
    · subst hx; trivial

theorem bindings_append (a b : List Expr) : bindings (a ++ b) = bindings a ++ bindings b := by
  simp [bindings]

theorem step_bindings (out : List Expr) (e : Expr) (h : WF out) :
    (bindings (compressStep out e)).Perm (bindings out ++ bindings [e]) := by
  rcases compressStep_cases out e with ⟨h1, _⟩ | ⟨c, p, m, f, t, r, fc, i, rfl, hf, h1, _⟩
  · rw [h1, bindings_append]
  · obtain ⟨c', p', m', f', t', r', fc', hg, hm⟩ := found_load hf
    obtain ⟨a, b, e1, e2, _⟩ := modify_split out i (appendSyms f t) _ hg
    rw [h1, e2]
    have hl' : f'.length = t'.length := h (.load c' p' m' f' t' r' fc') (by rw [e1]; simp)
    have hm : m'.value = m.value := hm
    rw [e1]
    simp only [bindings, List.flatMap_append, List.flatMap_cons, List.flatMap_nil, bindings1, appendSyms,
      List.append_nil, List.zip_append hl', List.map_append, hm, List.append_assoc]
    refine (List.Perm.refl _).append ?_
    refine (List.Perm.refl _).append ?_
    exact List.perm_append_comm

theorem wf_cons {e : Expr} {l : List Expr} (h : WF (e :: l)) : WF [e] ∧ WF l :=
  ⟨fun x hx => h x (by simp at hx; simp [hx]), fun x hx => h x (by simp [hx])⟩

theorem fold_bindings (l : List Expr) : ∀ out, WF out → WF l →
    (bindings (l.foldl compressStep out)).Perm (bindings out ++ bindings l) := by
  induction l with
  | nil => intro out _ _; simp [bindings]
  | cons e l ih =>
    intro out h hl
    have ⟨h1, h2⟩ := wf_cons hl
    refine (ih _ (step_wf out e h h1) h2).trans ?_
    have : bindings (e :: l) = bindings [e] ++ bindings l := by rw [← bindings_append]; rfl
    rw [this, ← List.append_assoc]
    exact (step_bindings out e h).append (List.Perm.refl _)

/-- **C17 (bindings).** Merging loads changes nothing about which symbols of which modules are bound to which names: the
bindings afterwards are those before, in some order. -/
theorem C17_bindings_kept (l : List Expr) (h : WF l) : (bindings (compressLoads l)).Perm (bindings l) := by
  have := fold_bindings l [] (by intro x hx; cases hx) h
  simpa [bindings, compressLoads] using this

/-- bindings taken from one module -/
def bindingsOf (m : Bytes) (l : List Expr) : List (Bytes × Bytes × Bytes) := (bindings l).filter (·.1 == m)

theorem bindingsOf_append (m : Bytes) (a b : List Expr) : bindingsOf m (a ++ b) = bindingsOf m a ++ bindingsOf m b := by
  simp [bindingsOf, bindings_append]

theorem bindingsOf_other (m : Bytes) (l : List Expr) (h : ∀ x ∈ l, loadModule x ≠ some m) : bindingsOf m l = [] := by
  induction l with
  | nil => rfl
  | cons e l ih =>
    have : e :: l = [e] ++ l := rfl
    rw [this, bindingsOf_append, ih (fun x hx => h x (by simp [hx])), List.append_nil]
    have := h e (by simp)
    cases e <;> simp [bindingsOf, bindings, bindings1]
    simp only [loadModule, ne_eq, Option.some.injEq] at this
    intro _ _ _ x y _ h1 _ _ h2
    exact this (h1.trans h2)

/-- without pinned loads, at most one load per module at all times -/
theorem step_unique (out : List Expr) (e : Expr) (hp : pinned e = false) (hpo : ∀ x ∈ out, pinned x = false)
    (h : ∀ m, (out.filter (fun x => loadModule x == some m)).length ≤ 1) :
    (∀ x ∈ compressStep out e, pinned x = false) ∧
    ∀ m, ((compressStep out e).filter (fun x => loadModule x == some m)).length ≤ 1 := by
  rcases compressStep_cases out e with ⟨h1, hnew⟩ | ⟨c, p, m, f, t, r, fc, i, rfl, hf, h1, _⟩
  · rw [h1]
    refine ⟨?_, ?_⟩
    · intro x hx
      rcases List.mem_append.mp hx with hx | hx
      · exact hpo x hx
      · simp at hx; rw [hx]; exact hp
    · intro m
      rw [List.filter_append, List.length_append]
      by_cases hm : loadModule e = some m
      · have hl : isLoad e = true := (isLoad_iff_module e).mpr ⟨m, hm⟩
        rcases hnew hl with ⟨i, x, _, hx, hpx⟩ | hno
        · rcases hpx with hpx | hpx
          · rw [hpo x (List.mem_of_getElem? hx)] at hpx; cases hpx
          · rw [hp] at hpx; cases hpx
        · have : out.filter (fun x => loadModule x == some m) = [] := by
            rw [List.filter_eq_nil_iff]
            intro x hx
            have := hno x hx
            rw [hm] at this
            simpa using this
          rw [this]
          simp [hm]
      · simp [hm]
        exact h m
  · obtain ⟨c', p', m', f', t', r', fc', hg, hm⟩ := found_load hf
    obtain ⟨a, b, e1, e2, _⟩ := modify_split out i (appendSyms f t) _ hg
    rw [h1, e2]
    refine ⟨?_, ?_⟩
    · intro x hx
      simp only [List.mem_append, List.mem_cons, List.not_mem_nil, or_false] at hx
      rcases hx with (hx | hx | hx) | hx
      · exact hpo x (by rw [e1]; simp [hx])
      · subst hx
        exact hpo (.load c' p' m' f' t' r' fc') (by rw [e1]; simp)
      · exact hpo x (by rw [e1]; simp [hx])
      · subst hx; rfl
    · intro k
      have := h k
      rw [e1] at this
      simp only [List.filter_append, List.filter_cons, List.filter_nil, loadModule, appendSyms] at this ⊢
      by_cases hk : m'.value = k
      · simp [hk] at this ⊢; exact this
      · simp [hk] at this ⊢; exact this

theorem step_bindingsOf (out : List Expr) (e : Expr) (hwf : WF out)
    (h : ∀ m, (out.filter (fun x => loadModule x == some m)).length ≤ 1) (m : Bytes) :
    bindingsOf m (compressStep out e) = bindingsOf m out ++ bindingsOf m [e] := by
  rcases compressStep_cases out e with ⟨h1, _⟩ | ⟨c, p, md, f, t, r, fc, i, rfl, hf, h1, _⟩
  · rw [h1, bindingsOf_append]
  · obtain ⟨c', p', m', f', t', r', fc', hg, hm⟩ := found_load hf
    obtain ⟨a, b, e1, e2, _⟩ := modify_split out i (appendSyms f t) _ hg
    have hl' : f'.length = t'.length := hwf (.load c' p' m' f' t' r' fc') (by rw [e1]; simp)
    rw [h1, e2, e1]
    have hm : m'.value = md.value := hm
    by_cases hk : m = md.value
    · have hu := h m
      rw [e1] at hu
      have hlm : loadModule (.load c' p' m' f' t' r' fc') = some md.value := by simp [loadModule, hm]
      simp only [List.filter_append, List.filter_cons, hlm, hk, beq_self_eq_true, if_true,
        List.length_append, List.length_cons] at hu
      have ha : ∀ x ∈ b, loadModule x ≠ some m := by
        intro x hx hx2
        have : x ∈ b.filter (fun x => loadModule x == some md.value) := by
          rw [List.mem_filter]; exact ⟨hx, by rw [hx2, hk]; simp⟩
        have := List.length_pos_of_mem this
        omega
      have hc : ∀ (x : Expr) (l : List Expr), x :: l = [x] ++ l := fun _ _ => rfl
      rw [hc _ b, hc _ b]
      simp only [bindingsOf_append, bindingsOf_other m b ha, List.append_nil, List.append_assoc]
      congr 1
      simp [bindingsOf, bindings, bindings1, appendSyms, List.zip_append hl', hk, hm]
    · have hc : ∀ (x : Expr) (l : List Expr), x :: l = [x] ++ l := fun _ _ => rfl
      rw [hc _ b, hc _ b]
      simp only [bindingsOf_append]
      have h0 : bindingsOf m [appendSyms f t (.load c' p' m' f' t' r' fc')] = [] :=
        bindingsOf_other m _ (by intro x hx; simp at hx; subst hx; simp [appendSyms, loadModule, hm]; exact fun h => hk h.symm)
      have h2 : bindingsOf m [Expr.load c' p' m' f' t' r' fc'] = [] :=
        bindingsOf_other m _ (by intro x hx; simp at hx; subst hx; simp [loadModule, hm]; exact fun h => hk h.symm)
      have h3 : bindingsOf m [Expr.load c p md f t r fc] = [] :=
        bindingsOf_other m _ (by intro x hx; simp at hx; subst hx; simp [loadModule]; exact fun h => hk h.symm)
      rw [h0, h2, h3]
      rfl

theorem fold_bindingsOf (l : List Expr) : ∀ out, WF out → WF l → (∀ x ∈ out, pinned x = false) →
    (∀ x ∈ l, pinned x = false) → (∀ m, (out.filter (fun x => loadModule x == some m)).length ≤ 1) →
    ∀ m, bindingsOf m (l.foldl compressStep out) = bindingsOf m out ++ bindingsOf m l := by
  induction l with
  | nil => intro out _ _ _ _ _ m; simp [bindingsOf, bindings]
  | cons e l ih =>
    intro out h hl ho hp hu m
    have ⟨h1, h2⟩ := wf_cons hl
    have hs := step_unique out e (hp e (by simp)) ho hu
    have := ih _ (step_wf out e h h1) h2 hs.1 (fun x hx => hp x (by simp [hx])) hs.2 m
    rw [List.foldl_cons, this, step_bindingsOf out e h hu, List.append_assoc, ← bindingsOf_append]
    rfl

/-- **C17 (order).** If no load is pinned, the bindings taken from each module also keep their order. -/
theorem C17_bindings_in_order (l : List Expr) (h : WF l) (hp : ∀ x ∈ l, pinned x = false) (m : Bytes) :
    bindingsOf m (compressLoads l) = bindingsOf m l := by
  have := fold_bindingsOf l [] (by intro x hx; cases hx) h (by intro x hx; cases hx) hp (by intro m; simp) m
  simpa [bindingsOf, bindings, compressLoads] using this

theorem MergeOf.append {e : Expr} {c p m f t r fc} (fs ts : List IdentN) (h : MergeOf e (.load c p m f t r fc)) :
    MergeOf e (.load c p m (f ++ fs) (t ++ ts) r fc) := by
  cases h with
  | same => exact .more ..
  | more c p m f0 t0 r fc fs0 ts0 =>
    rw [List.append_assoc, List.append_assoc]; exact .more ..

theorem fold_mergeOf (l : List Expr) : ∀ (out pre : List Expr), out.length = pre.length →
    (∀ (i : Nat) e e', pre[i]? = some e → out[i]? = some e' → MergeOf e e') →
    (l.foldl compressStep out).length = (pre ++ l).length ∧
    ∀ (i : Nat) e e', (pre ++ l)[i]? = some e → (l.foldl compressStep out)[i]? = some e' → MergeOf e e' := by
  induction l with
  | nil => intro out pre hl h; simpa using ⟨hl, h⟩
  | cons x l ih =>
    intro out pre hl h
    have := ih (compressStep out x) (pre ++ [x]) (by rw [compressStep_length]; simp [hl]) ?_
    · rw [List.append_assoc] at this; exact this
    · intro i e e' h1 h2
      rcases compressStep_cases out x with ⟨hs, _⟩ | ⟨c, p, m, f, t, r, fc, k, rfl, hf, hs, _⟩
      · rw [hs] at h2
        by_cases hi : i < pre.length
        · rw [List.getElem?_append_left hi] at h1
          rw [List.getElem?_append_left (by omega)] at h2
          exact h i e e' h1 h2
        · rw [List.getElem?_append_right (by omega)] at h1 h2
          rw [← hl] at h1
          rw [h1] at h2
          simp only [Option.some.injEq] at h2
          rw [h2]; exact .same _
      · rw [hs] at h2
        by_cases hi : i < pre.length
        · rw [List.getElem?_append_left hi] at h1
          rw [List.getElem?_append_left (by rw [List.length_modify]; omega), List.getElem?_modify] at h2
          by_cases hk : k = i
          · obtain ⟨c', p', m', f', t', r', fc', hg, hm⟩ := found_load hf
            rw [hk] at hg
            rw [hg] at h2
            simp [hk, appendSyms] at h2
            subst h2
            exact MergeOf.append f t (h i e _ h1 hg)
          · simp only [if_neg hk] at h2
            cases ho : out[i]? with
            | none => rw [ho] at h2; cases h2
            | some y =>
              rw [ho] at h2
              simp only [Option.map_eq_map, Option.map_some, Option.some.injEq] at h2
              rw [← h2]; exact h i e y h1 ho
        · rw [List.getElem?_append_right (by omega)] at h1
          rw [List.getElem?_append_right (by rw [List.length_modify]; omega), List.length_modify] at h2
          rw [← hl] at h1
          cases hj : i - out.length with
          | zero =>
            rw [hj] at h1 h2
            simp at h1 h2
            subst h1; subst h2
            exact .gone _ rfl
          | succ j => rw [hj] at h1; simp at h1

/-- **C17 (other statements).** Merging keeps the number and the places of statements; a statement that is not a load stays
as it is, and a load stays the same load (same module, comments, and its own symbols first, in order), possibly with more
symbols behind, or is removed (nil). -/
theorem C17_other_statements (l : List Expr) :
    (compressLoads l).length = l.length ∧
    ∀ (i : Nat) e e', l[i]? = some e → (compressLoads l)[i]? = some e' → MergeOf e e' := by
  have := fold_mergeOf l [] [] rfl (by intro i e e' h; simp at h)
  simpa [compressLoads] using this

/-- two loads of one module remain only if the first load of that module or the later one is pinned -/
def Merged (l : List Expr) : Prop :=
  ∀ (i j : Nat) (x y : Expr) (m : Bytes), i < j → l[i]? = some x → l[j]? = some y →
    loadModule x = some m → loadModule y = some m →
    l.findIdx? (fun z => loadModule z == some m) = some i → pinned x = true ∨ pinned y = true

theorem step_merged (out : List Expr) (e : Expr) (h : Merged out) : Merged (compressStep out e) := by
  rcases compressStep_cases out e with ⟨hs, hnew⟩ | ⟨c, p, md, f, t, r, fc, k, rfl, hf, hs, _⟩
  · rw [hs]
    intro i j x y m hij hx hy hmx hmy hfirst
    rw [List.findIdx?_append] at hfirst
    have hj : j < out.length ∨ j = out.length := by
      have := (List.getElem?_eq_some_iff.mp hy).1
      simp at this; omega
    have hi : i < out.length := by omega
    rw [List.getElem?_append_left hi] at hx
    have hfirst' : out.findIdx? (fun z => loadModule z == some m) = some i := by
      cases hF : out.findIdx? (fun z => loadModule z == some m) with
      | some q => rw [hF] at hfirst; simpa using hfirst
      | none =>
        rw [List.findIdx?_eq_none_iff] at hF
        have := hF x (List.mem_of_getElem? hx)
        simp [hmx] at this
    rcases hj with hj | hj
    · rw [List.getElem?_append_left hj] at hy
      exact h i j x y m hij hx hy hmx hmy hfirst'
    · rw [hj, List.getElem?_append_right (by omega)] at hy
      simp at hy
      subst hy
      rcases hnew ((isLoad_iff_module _).mpr ⟨m, hmy⟩) with ⟨q, z, hq, hz, hpz⟩ | hno
      · rw [hmy, hfirst'] at hq
        simp only [Option.some.injEq] at hq
        subst hq
        rw [hx] at hz
        simp only [Option.some.injEq] at hz
        rw [hz]; exact hpz
      · exact absurd (hmx.trans hmy.symm) (hno x (List.mem_of_getElem? hx))
  · obtain ⟨c', p', m', f', t', r', fc', hg, hm⟩ := found_load hf
    obtain ⟨a, b, e1, e2, hlen⟩ := modify_split out k (appendSyms f t) _ hg
    rw [hs]
    have key : ∀ i : Nat, ((out.modify k (appendSyms f t))[i]?).map (fun z => (loadModule z, pinned z))
        = (out[i]?).map (fun z => (loadModule z, pinned z)) := by
      intro i
      rw [List.getElem?_modify]
      by_cases hk : k = i
      · subst hk; rw [hg]; simp [appendSyms, loadModule, pinned, hasComment, Expr.comments]
      · simp [hk]
    intro i j x y m hij hx hy hmx hmy hfirst
    have hj : j < out.length := by
      rcases Nat.lt_or_ge j out.length with hj | hj
      · exact hj
      · rw [List.getElem?_append_right (by simp; omega)] at hy
        have : y = .nil := by
          have := List.mem_of_getElem? hy
          simpa using this
        rw [this] at hmy; cases hmy
    rw [List.getElem?_append_left (by simp; omega)] at hx hy
    have kx := key i
    have ky := key j
    rw [hx] at kx; rw [hy] at ky
    have hx' : ∃ x', out[i]? = some x' ∧ loadModule x' = loadModule x ∧ pinned x' = pinned x := by
      cases ho : out[i]? with
      | none => rw [ho] at kx; simp at kx
      | some z => rw [ho] at kx; simp at kx; exact ⟨z, rfl, kx.1.symm, kx.2.symm⟩
    have hy' : ∃ x', out[j]? = some x' ∧ loadModule x' = loadModule y ∧ pinned x' = pinned y := by
      cases ho : out[j]? with
      | none => rw [ho] at ky; simp at ky
      | some z => rw [ho] at ky; simp at ky; exact ⟨z, rfl, ky.1.symm, ky.2.symm⟩
    obtain ⟨x', ox, mx, px⟩ := hx'
    obtain ⟨y', oy, my, py⟩ := hy'
    rw [← px, ← py]
    refine h i j x' y' m hij ox oy (mx.trans hmx) (my.trans hmy) ?_
    rw [List.findIdx?_append] at hfirst
    have hsame : (out.modify k (appendSyms f t)).findIdx? (fun z => loadModule z == some m)
        = out.findIdx? (fun z => loadModule z == some m) := by
      rw [e2, e1]
      simp [List.findIdx?_append, List.findIdx?_cons, loadModule, appendSyms]
    rw [hsame] at hfirst
    cases hF : out.findIdx? (fun z => loadModule z == some m) with
    | some q => rw [hF] at hfirst; simpa using hfirst
    | none =>
      rw [List.findIdx?_eq_none_iff] at hF
      have := hF x' (List.mem_of_getElem? ox)
      simp [mx.trans hmx] at this

theorem fold_merged (l : List Expr) : ∀ out, Merged out → Merged (l.foldl compressStep out) := by
  induction l with
  | nil => intro out h; exact h
  | cons e l ih => intro out h; exact ih _ (step_merged out e h)

/-- **C17 (complete).** Afterwards, two loads of one module remain only where the first one of that module, or the later one,
carries the comment that disables merging. -/
theorem C17_one_load_per_module (l : List Expr) : Merged (compressLoads l) :=
  fold_merged l [] (by intro i j x y m _ h; simp at h)

theorem fold_fixed (l : List Expr) : ∀ out, Merged (out ++ l) → l.foldl compressStep out = out ++ l := by
  induction l with
  | nil => intro out _; simp
  | cons e l ih =>
    intro out h
    have h1 : compressStep out e = out ++ [e] := by
      rcases compressStep_cases out e with ⟨hs, _⟩ | ⟨c, p, md, f, t, r, fc, k, rfl, hf, hs, hpe, hpx⟩
      · exact hs
      · exfalso
        obtain ⟨c', p', m', f', t', r', fc', hg, hm⟩ := found_load hf
        have hm : m'.value = md.value := hm
        have hk : k < out.length := (List.getElem?_eq_some_iff.mp hg).1
        have := h k out.length _ (.load c p md f t r fc) md.value hk
          (by rw [List.getElem?_append_left hk]; exact hg)
          (by rw [List.getElem?_append_right (by omega)]; simp)
          (by simp [loadModule, hm]) rfl
          (by rw [List.findIdx?_append]
              have hf' : out.findIdx? (fun z => loadModule z == some md.value) = some k := hf
              rw [hf']; rfl)
        rw [hpx _ hg, hpe] at this
        simp at this
    rw [List.foldl_cons, h1, ih (out ++ [e]) (by rw [List.append_assoc]; exact h), List.append_assoc]
    rfl

/-- **C17 (idempotent).** Merging again changes nothing. -/
theorem C17_idempotent (l : List Expr) : compressLoads (compressLoads l) = compressLoads l := by
  have := fold_fixed (compressLoads l) [] (by simpa using C17_one_load_per_module l)
  simpa [compressLoads] using this

/-! ### Witnesses -/

def exLoad (m s : Bytes) (c : Comments := {}) : Expr :=
  .load c {} { value := m } [{ name := s }] [{ name := s }] {} false

/-- a non-trivial file that meets the hypotheses and is changed -/
example : WF [exLoad b!":a" b!"x", .ident { name := b!"q" }, exLoad b!":a" b!"y"] ∧
    compressLoads [exLoad b!":a" b!"x", .ident { name := b!"q" }, exLoad b!":a" b!"y"] =
      [.load {} {} { value := b!":a" } [{ name := b!"x" }, { name := b!"y" }] [{ name := b!"x" }, { name := b!"y" }] {} false,
       .ident { name := b!"q" }, .nil] := by
  refine ⟨?_, rfl⟩
  intro e he
  simp only [List.mem_cons, List.not_mem_nil, or_false] at he
  rcases he with rfl | rfl | rfl <;> simp [exLoad]

/-- Finding: the comments of a merged load are lost. -/
theorem C17_lost_comment_witness :
    compressLoads [exLoad b!":a" b!"x", exLoad b!":a" b!"y" { before := [{ token := b!"# important" }] }] =
      [.load {} {} { value := b!":a" } [{ name := b!"x" }, { name := b!"y" }] [{ name := b!"x" }, { name := b!"y" }] {} false,
       .nil] := rfl

end Verif.Props.LoadMerge
