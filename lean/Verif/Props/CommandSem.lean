import Verif.Props.CommandFrame
import Verif.Props.Select
/-
C64: what the list commands of buildozer do to the value of an attribute, under every configuration.
-/
namespace Verif.Props.Commands
open Verif Verif.Syntax Verif.Edit Verif.Cmd Verif.Walk Verif.Props.Attr Verif.Props.ListEdit Verif.Props.Select

/-! ### Specification -/

/-- The element for an argument of `add`: a number for attributes that are lists of integers, otherwise a string: the argument
without quotes, shortened if labels are to be shortened. -/
def Wanted (E : Env) (name arg : Bytes) (x : Expr) : Prop :=
  (E.isIntList name = true → x = .literal {} {} arg) ∧
  (E.isIntList name = false → ∃ s item, x = .string s ∧ ItemOf arg item ∧ s.value = if E.short then Labels.shorten item E.pkg else item)

/-- an expression made of lists, concatenations and selects between lists only -/
inductive Literal : Expr → Prop
  | list {c p l t m} : Literal (.list c p l t m)
  | plus {c x p lb y} : Literal x → Literal y → Literal (.binary c x p b!"+" lb y)
  | select {c ci pi p c' p' kvs t m rest t' a b} : (∀ kv ∈ kvs, ∃ l, EntryList kv l) →
      Literal (.call c (.ident ⟨ci, pi, b!"select"⟩) p (.dict c' p' kvs t m :: rest) t' a b)

/-- the attribute is defined at most once -/
def Once (name : Bytes) (args : List Expr) : Prop := (attrKeys args).count name ≤ 1

/-- The value of the attribute is a variable that the command may edit. -/
def IsVariable (name : Bytes) (st : St) : Prop := ∃ i, attr name st.args = .ident i ∧ ∃ q ∈ st.vars, q.1 = i.name

/-- the element is removed because of one of the arguments -/
def RemovedBy (E : Env) (vals : List Bytes) (x : Expr) : Prop :=
  ∃ arg ∈ vals, ∃ item, ItemOf arg item ∧ Removed E.dwc item E.pkg x

/-! ### Adding -/

theorem getStringValue_item (arg : Bytes) : ItemOf arg (getStringValue arg) := by
  unfold getStringValue ItemOf
  dsimp only
  constructor <;> intro h <;> simp [h]

theorem itemOf_unique {arg a b : Bytes} (h : ItemOf arg a) (h' : ItemOf arg b) : a = b := by
  cases hq : (Quote.unquote arg).err with
  | false => rw [h.1 hq, h'.1 hq]
  | true => rw [h.2 hq, h'.2 hq]

theorem getStringExpr_spec (E : Env) (arg : Bytes) : ∃ s, getStringExpr E arg = .string s ∧
    s.value = if E.short then Labels.shorten (getStringValue arg) E.pkg else getStringValue arg := by
  unfold getStringExpr getStringValue shortenLabel
  dsimp only
  split
  · exact ⟨_, rfl, rfl⟩
  · exact ⟨_, rfl, rfl⟩

theorem itemOf_wanted (E : Env) (name arg : Bytes) : Wanted E name arg (itemOf E name arg) := by
  unfold itemOf
  constructor
  · intro h; rw [if_pos h]
  · intro h
    rw [if_neg (by simp [h])]
    obtain ⟨s, h1, h2⟩ := getStringExpr_spec E arg
    exact ⟨s, _, h1, getStringValue_item arg, h2⟩

theorem wanted_map (E : Env) (name : Bytes) (vals : List Bytes) : Forall2 (Wanted E name) vals (vals.map (itemOf E name)) := by
  induction vals with
  | nil => exact .nil
  | cons a l ih => exact .cons (itemOf_wanted ..) ih

theorem inLists_value (w : World) {z e : Expr} (h : Operand z e) : ∀ {c p l t m}, z = .list c p l t m → ∀ v, Eval w e v → ∀ x ∈ l, x ∈ v := by
  induction h with
  | self =>
    intro c p l t m hz v hv x hx
    subst hz
    have := eval_unique w .list _ hv
    subst this
    exact hx
  | left _ ih =>
    intro c p l t m hz v hv x hx
    cases hv with
    | plus h1 h2 => exact List.mem_append.mpr (.inl (ih hz _ h1 x hx))
    | other _ h2 => exact absurd rfl (h2 _ _ _ _ _)
  | right _ ih =>
    intro c p l t m hz v hv x hx
    cases hv with
    | plus h1 h2 => exact List.mem_append.mpr (.inr (ih hz _ h2 x hx))
    | other _ h2 => exact absurd rfl (h2 _ _ _ _ _)

theorem notNil_of_eval {w : World} (ho : w.opaque_ .nil = none) {e : Expr} {v : List Expr} (hv : Eval w e v) : e.isNil = false := by
  cases h : e.isNil with
  | false => rfl
  | true =>
    have : e = .nil := by cases e <;> simp_all [Expr.isNil]
    subst this
    exact absurd hv (not_eval_nil w ho v)

theorem eval_add (w : World) (ho : w.opaque_ .nil = none) (dwc : Bool) (e : Expr) (pkg : Bytes) (item : Expr) (sorted : Bool)
    (v : List Expr) (hv : Eval w e v) : ∃ v', Eval w (addValueToList dwc e pkg item sorted) v' ∧ SameSet pkg (v ++ [item]) v' := by
  have hn := notNil_of_eval ho hv
  have hadd : ∀ e1 v1, Eval w e1 v1 → (∀ x, x ∈ v1 → x ∈ v) → (∀ x, x ∈ v → x ∈ v1 ∨ Same pkg item x) →
      ∃ v', Eval w (addTo item sorted e1) v' ∧ SameSet pkg (v ++ [item]) v' := by
    intro e1 v1 h1 h2 h3
    obtain ⟨v', hv', hm⟩ := eval_addTo w item sorted e1 v1 h1
    refine ⟨v', hv', ?_, ?_⟩
    · intro x hx
      rcases List.mem_append.mp hx with hx | hx
      · rcases h3 x hx with h | h
        · exact ⟨x, (hm x).mpr (.inr h), .inl rfl⟩
        · exact ⟨item, (hm item).mpr (.inl rfl), same_symm h⟩
      · exact ⟨item, (hm item).mpr (.inl rfl), .inl (List.mem_singleton.mp hx)⟩
    · intro x hx
      rcases (hm x).mp hx with rfl | h
      · exact ⟨x, by simp, .inl rfl⟩
      · exact ⟨x, List.mem_append.mpr (.inl (h2 x h)), .inl rfl⟩
  unfold addValueToList
  simp only [hn, Bool.false_eq_true, if_false]
  split
  · rename_i s
    split
    · rename_i hf
      obtain ⟨x, ⟨_, _, l, _, _, hop, hx⟩, s', rfl, hq⟩ := (listFind_iff e s.value pkg).mp hf
      refine ⟨v, hv, fun y hy => ?_, fun y hy => ⟨y, List.mem_append.mpr (.inl hy), .inl rfl⟩⟩
      rcases List.mem_append.mp hy with hy | hy
      · exact ⟨y, hy, .inl rfl⟩
      · rw [List.mem_singleton.mp hy]
        exact ⟨_, inLists_value w hop rfl v hv _ hx, .inr ⟨s, s', rfl, rfl, equal_symm hq⟩⟩
    · obtain ⟨v1, h1, h2, h3⟩ := eval_selectDelete w dwc s.value pkg
        ((selectDelete_edit dwc s.value pkg e).imp (fun _ _ h => h) (fun l l' h x => by rw [h, List.mem_filter]; simp)) v hv
      refine hadd _ v1 h1 h2 (fun x hx => ?_)
      rcases h3 x hx with h | ⟨s', hx', hq, _⟩
      · exact .inl h
      · exact .inr (.inr ⟨s, s', rfl, hx', equal_symm hq⟩)
  · exact hadd e v hv (fun _ h => h) (fun _ h => .inl h)

theorem sameSet_append {pkg : Bytes} {a a' : List Expr} (b : List Expr) (h : SameSet pkg a a') : SameSet pkg (a ++ b) (a' ++ b) := by
  constructor
  · intro x hx
    rcases List.mem_append.mp hx with hx | hx
    · obtain ⟨y, hy, hs⟩ := h.1 x hx
      exact ⟨y, List.mem_append.mpr (.inl hy), hs⟩
    · exact ⟨x, List.mem_append.mpr (.inr hx), .inl rfl⟩
  · intro y hy
    rcases List.mem_append.mp hy with hy | hy
    · obtain ⟨x, hx, hs⟩ := h.2 y hy
      exact ⟨x, List.mem_append.mpr (.inl hx), hs⟩
    · exact ⟨y, List.mem_append.mpr (.inr hy), .inl rfl⟩

theorem lookup_none {n : Bytes} {l : List (Bytes × Expr)} (h : ∀ q ∈ l, q.1 ≠ n) : lookup n l = none := by
  induction l with
  | nil => rfl
  | cons q l ih =>
    obtain ⟨m, e⟩ := q
    rw [lookup, if_neg (h _ (List.mem_cons_self ..)), ih (fun q hq => h q (List.mem_cons_of_mem _ hq))]

theorem getVariable_none {name : Bytes} {st : St} (h : ¬ IsVariable name st) : getVariable (attr name st.args) st.vars = none := by
  unfold getVariable
  split
  · rename_i i hi
    rw [lookup_none]
    · rfl
    · intro q hq hn; exact h ⟨i, hi, q, hq, hn⟩
  · rfl

/-- the value of an expression, where a missing attribute has the value `[]` -/
def ValueOr (w : World) (e : Expr) (v : List Expr) : Prop := Eval w e v ∨ (e = .nil ∧ v = [])

theorem eval_addOr (w : World) (ho : w.opaque_ .nil = none) (dwc : Bool) (e : Expr) (pkg : Bytes) (item : Expr) (sorted : Bool)
    (v : List Expr) (hv : ValueOr w e v) : ∃ v', Eval w (addValueToList dwc e pkg item sorted) v' ∧ SameSet pkg (v ++ [item]) v' := by
  rcases hv with hv | ⟨rfl, rfl⟩
  · exact eval_add w ho dwc e pkg item sorted v hv
  · exact ⟨[item], .list, sameSet_refl _ _⟩

theorem add_not_ident (dwc : Bool) (e : Expr) (pkg : Bytes) (item : Expr) (sorted : Bool) (i : IdentN)
    (h : addValueToList dwc e pkg item sorted = .ident i) : e = .ident i := by
  have ha : ∀ e1, addTo item sorted e1 ≠ .ident i := by
    intro e1 h1
    rcases addTo_spec item sorted e1 with h2 | ⟨_, h2⟩
    · rw [h1] at h2; cases h2
    · rw [h1] at h2; cases h2
  unfold addValueToList at h
  split at h
  · cases h
  · split at h
    · split at h
      · exact h
      · exact absurd h (ha _)
    · exact absurd h (ha _)

theorem addToAttr_args {E : Env} {name : Bytes} {st : St} (hvar : ¬ IsVariable name st) (item : Expr) :
    (addToAttr E name item st).vars = st.vars ∧
    attr name (addToAttr E name item st).args = addValueToList E.dwc (attr name st.args) E.pkg item (!mustNotBeSorted name) := by
  unfold addToAttr
  rw [getVariable_none hvar]
  exact ⟨rfl, C27_get_set ..⟩

theorem addToAttr_notVar {E : Env} {name : Bytes} {st : St} (hvar : ¬ IsVariable name st) (item : Expr) :
    ¬ IsVariable name (addToAttr E name item st) := by
  obtain ⟨h1, h2⟩ := addToAttr_args (E := E) hvar item
  rintro ⟨i, hi, hq⟩
  rw [h1] at hq
  rw [h2] at hi
  exact hvar ⟨i, add_not_ident _ _ _ _ _ _ hi, hq⟩

theorem fold_addToAttr (w : World) (ho : w.opaque_ .nil = none) (E : Env) (name : Bytes) : ∀ (xs : List Expr) (st : St) (v : List Expr),
    ¬ IsVariable name st → ValueOr w (attr name st.args) v →
    ∃ v', ValueOr w (attr name (xs.foldl (fun st x => addToAttr E name x st) st).args) v' ∧ SameSet E.pkg (v ++ xs) v' ∧
      (xs ≠ [] → Eval w (attr name (xs.foldl (fun st x => addToAttr E name x st) st).args) v') ∧
      (xs.foldl (fun st x => addToAttr E name x st) st).vars = st.vars
  | [], st, v, _, hv => ⟨v, hv, by rw [List.append_nil]; exact sameSet_refl _ _, fun h => absurd rfl h, rfl⟩
  | x :: xs, st, v, hvar, hv => by
    obtain ⟨a1, a2⟩ := addToAttr_args (E := E) hvar x
    obtain ⟨v1, h1, h2⟩ := eval_addOr w ho E.dwc _ E.pkg x (!mustNotBeSorted name) v hv
    rw [← a2] at h1
    obtain ⟨v2, g1, g2, g3, g4⟩ := fold_addToAttr w ho E name xs _ v1 (addToAttr_notVar hvar x) (.inl h1)
    refine ⟨v2, g1, ?_, ?_, g4.trans a1⟩
    · refine sameSet_trans ?_ g2
      have := sameSet_append xs h2
      simpa using this
    · intro _
      cases xs with
      | nil =>
        rcases g1 with g1 | ⟨g1, _⟩
        · exact g1
        · rw [List.foldl_nil] at g1
          rw [g1] at h1
          exact absurd h1 (not_eval_nil w ho _)
      | cons y ys => exact g3 (by simp)

theorem resolve_value (w : World) (ho : w.opaque_ .nil = none) (dwc : Bool) (name pkg : Bytes) (args : List Expr) (v : List Expr)
    (hv : Eval w (attr name args) v) : ∃ v', Eval w (attr name (resolveAttr dwc name pkg args)) v' ∧ SameSet pkg v v' := by
  unfold resolveAttr
  rw [if_neg (by rw [notNil_of_eval ho hv]; simp), C27_get_set]
  exact C33_resolve w ho dwc pkg _ v hv

/-- **C64 (add).** Whatever the value of the attribute is, under whatever configuration: afterwards it has the old elements and the
added ones, and no others (up to order, repetition and spelling of labels). A missing attribute is created. -/
theorem C64_add (w : World) (ho : w.opaque_ .nil = none) (E : Env) (name : Bytes) (vals : List Bytes) (hne : vals ≠ []) (st : St)
    (v : List Expr) (hvar : ¬ IsVariable name st) (hv : ValueOr w (attr name st.args) v) :
    ∃ xs v', Forall2 (Wanted E name) vals xs ∧ Eval w (attr name (cmdAdd E name vals st).st.args) v' ∧ SameSet E.pkg (v ++ xs) v' ∧
      (cmdAdd E name vals st).st.vars = st.vars ∧ (cmdAdd E name vals st).file = true ∧ (cmdAdd E name vals st).err = false := by
  have hfold : vals.foldl (fun st v => addToAttr E name (itemOf E name v) st) st =
      (vals.map (itemOf E name)).foldl (fun st x => addToAttr E name x st) st := by rw [List.foldl_map]
  obtain ⟨v1, _, h2, h3, h4⟩ := fold_addToAttr w ho E name (vals.map (itemOf E name)) st v hvar hv
  obtain ⟨v2, g1, g2⟩ := resolve_value w ho E.dwc name E.pkg _ v1 (h3 (by simpa using hne))
  refine ⟨vals.map (itemOf E name), v2, ?_, ?_, sameSet_trans h2 g2, ?_, rfl, rfl⟩
  · exact wanted_map E name vals
  · unfold cmdAdd done
    dsimp only
    rw [hfold]
    exact g1
  · unfold cmdAdd done
    dsimp only
    rw [hfold]
    exact h4

/-! ### Variables -/

/-- the value assigned to the variable -/
def VarIs (vars : List (Bytes × Expr)) (n : Bytes) (e : Expr) : Prop := ∃ pre post, vars = pre ++ (n, e) :: post ∧ ∀ q ∈ pre, q.1 ≠ n

theorem varIs_lookup {vars : List (Bytes × Expr)} {n : Bytes} {e : Expr} (h : VarIs vars n e) : lookup n vars = some e := by
  obtain ⟨pre, post, rfl, hp⟩ := h
  induction pre with
  | nil => simp [lookup]
  | cons q pre ih =>
    obtain ⟨m, x⟩ := q
    rw [List.cons_append, lookup, if_neg (hp _ (List.mem_cons_self ..)), ih (fun q hq => hp q (List.mem_cons_of_mem _ hq))]

theorem varIs_assign {vars : List (Bytes × Expr)} {n : Bytes} {e : Expr} (h : VarIs vars n e) (e' : Expr) : VarIs (assignVar n e' vars) n e' := by
  obtain ⟨pre, post, rfl, hp⟩ := h
  refine ⟨assignVar n e' pre, assignVar n e' post, by simp [assignVar], ?_⟩
  intro q hq
  obtain ⟨q0, h0, rfl⟩ := List.mem_map.mp hq
  rw [if_neg (hp _ h0)]
  exact hp _ h0

theorem assign_other {vars : List (Bytes × Expr)} {n m : Bytes} (hne : m ≠ n) (e' : Expr) : lookup m (assignVar n e' vars) = lookup m vars := by
  induction vars with
  | nil => rfl
  | cons q l ih =>
    obtain ⟨k, x⟩ := q
    have : assignVar n e' ((k, x) :: l) = (if k = n then (k, e') else (k, x)) :: assignVar n e' l := rfl
    rw [this]
    by_cases hk : k = n
    · rw [if_pos hk, lookup, lookup, if_neg (by rw [hk]; exact hne.symm), if_neg (by rw [hk]; exact hne.symm), ih]
    · rw [if_neg hk, lookup, lookup, ih]

theorem fold_addVar (w : World) (ho : w.opaque_ .nil = none) (E : Env) (name : Bytes) (i : IdentN) : ∀ (xs : List Expr) (st : St) (rhs : Expr)
    (v : List Expr), attr name st.args = .ident i → VarIs st.vars i.name rhs → Eval w rhs v →
    ∃ rhs' v', VarIs (xs.foldl (fun st x => addToAttr E name x st) st).vars i.name rhs' ∧ Eval w rhs' v' ∧ SameSet E.pkg (v ++ xs) v' ∧
      (∀ m, m ≠ i.name → lookup m (xs.foldl (fun st x => addToAttr E name x st) st).vars = lookup m st.vars) ∧
      (xs.foldl (fun st x => addToAttr E name x st) st).args = st.args
  | [], st, rhs, v, _, hr, hv => ⟨rhs, v, hr, hv, by rw [List.append_nil]; exact sameSet_refl _ _, fun _ _ => rfl, rfl⟩
  | x :: xs, st, rhs, v, ha, hr, hv => by
    have hstep : addToAttr E name x st = { st with vars := assignVar i.name (addValueToList E.dwc rhs E.pkg x (!mustNotBeSorted name)) st.vars } := by
      unfold addToAttr getVariable
      rw [ha]
      simp only [varIs_lookup hr, Option.map_some]
    obtain ⟨v1, h1, h2⟩ := eval_add w ho E.dwc rhs E.pkg x (!mustNotBeSorted name) v hv
    rw [List.foldl_cons, hstep]
    obtain ⟨rhs', v', g1, g2, g3, g4, g5⟩ := fold_addVar w ho E name i xs
      { st with vars := assignVar i.name (addValueToList E.dwc rhs E.pkg x (!mustNotBeSorted name)) st.vars } _ v1 ha (varIs_assign hr _) h1
    refine ⟨rhs', v', g1, g2, ?_, fun m hm => (g4 m hm).trans (assign_other hm _), g5⟩
    refine sameSet_trans ?_ g3
    simpa using sameSet_append xs h2

theorem setAttr_same (name : Bytes) (args : List Expr) (h : (attr name args).isNil = false) : setAttr name (attr name args) args = args := by
  rcases exists_first name args with hn | ⟨pre, d, post, hf⟩
  · rw [(C27_get args name).2 hn] at h; cases h
  · rw [(C27_get args name).1 _ _ _ hf, (C27_set args name _).1 _ _ _ hf]
    obtain ⟨he, hd, _⟩ := hf
    obtain ⟨c, i, p, o, lb, r, rfl, _⟩ := hd
    rw [he]
    rfl

/-- **C64 (add, variable).** If the value of the attribute is a variable and variables are edited, the same holds for the value of
the variable; the rule and the other variables stay as they are. -/
theorem C64_add_variable (w : World) (ho : w.opaque_ .nil = none) (E : Env) (name : Bytes) (vals : List Bytes) (st : St) (i : IdentN)
    (rhs : Expr) (v : List Expr) (ha : attr name st.args = .ident i) (hr : VarIs st.vars i.name rhs) (hv : Eval w rhs v) :
    ∃ xs rhs' v', Forall2 (Wanted E name) vals xs ∧ VarIs (cmdAdd E name vals st).st.vars i.name rhs' ∧ Eval w rhs' v' ∧
      SameSet E.pkg (v ++ xs) v' ∧ (∀ m, m ≠ i.name → lookup m (cmdAdd E name vals st).st.vars = lookup m st.vars) ∧
      (cmdAdd E name vals st).st.args = st.args := by
  have hfold : vals.foldl (fun st v => addToAttr E name (itemOf E name v) st) st =
      (vals.map (itemOf E name)).foldl (fun st x => addToAttr E name x st) st := by rw [List.foldl_map]
  obtain ⟨rhs', v', g1, g2, g3, g4, g5⟩ := fold_addVar w ho E name i (vals.map (itemOf E name)) st rhs v ha hr hv
  refine ⟨vals.map (itemOf E name), rhs', v', ?_, ?_, g2, g3, ?_, ?_⟩
  · exact wanted_map E name vals
  · unfold cmdAdd done; dsimp only; rw [hfold]; exact g1
  · unfold cmdAdd done; dsimp only; rw [hfold]; exact g4
  · unfold cmdAdd done; dsimp only; rw [hfold, g5]
    unfold resolveAttr
    rw [ha]
    have e1 : resolveValue E.dwc E.pkg (.ident i) = .ident i := rfl
    rw [e1]
    show (if false = true then st.args else setAttr name (.ident i) st.args) = st.args
    rw [if_neg (by simp), ← ha]
    exact setAttr_same name st.args (by rw [ha]; rfl)

/-! ### Evaluation of edited lists -/

theorem entries_edit {R : List Expr → List Expr → Prop} {kvs kvs' : List Expr} (h : Forall2 (EntryEdit R) kvs kvs') :
    kvs'.map keyOf = kvs.map keyOf ∧ ∀ (i : Nat) kv, kvs[i]? = some kv → ∃ kv', kvs'[i]? = some kv' ∧ EntryEdit R kv kv' := by
  induction h with
  | nil => exact ⟨rfl, fun i kv h => by cases h⟩
  | cons h _ ih =>
    constructor
    · rw [List.map_cons, List.map_cons, ih.1]
      congr 1
      cases h <;> rfl
    · intro i kv hi
      cases i with
      | zero => simp at hi; subst hi; exact ⟨_, rfl, h⟩
      | succ i => exact ih.2 i kv (by simpa using hi)

theorem entries_lists {R : List Expr → List Expr → Prop} {kvs kvs' : List Expr} (h : Forall2 (EntryEdit R) kvs kvs')
    (hl : ∀ kv ∈ kvs, ∃ l, EntryList kv l) : ∀ kv ∈ kvs', ∃ l, EntryList kv l := by
  induction h with
  | nil => simp
  | cons h _ ih =>
    intro kv hkv
    rcases List.mem_cons.mp hkv with rfl | hkv
    · cases h with
      | list => exact ⟨_, _, _, _, _, _, _, _, rfl⟩
      | other => exact hl _ (List.mem_cons_self ..)
    · exact ih (fun kv hk => hl kv (List.mem_cons_of_mem _ hk)) kv hkv

theorem eval_edit (w : World) {R : List Expr → List Expr → Prop} (happ : ∀ a a' b b', R a a' → R b b' → R (a ++ b) (a' ++ b')) {e e' : Expr}
    (h : ListsEdit R R e e') : Literal e → Literal e' ∧ ∀ v, Eval w e v → ∃ v', Eval w e' v' ∧ R v v' := by
  induction h with
  | list h =>
    intro _
    refine ⟨.list, fun v hv => ?_⟩
    have := eval_unique w .list _ hv
    subst this
    exact ⟨_, .list, h⟩
  | plus _ _ ih1 ih2 =>
    intro hl
    cases hl with
    | plus l1 l2 =>
      refine ⟨.plus (ih1 l1).1 (ih2 l2).1, fun v hv => ?_⟩
      cases hv with
      | plus h1 h2 =>
        obtain ⟨a', ha, a1⟩ := (ih1 l1).2 _ h1
        obtain ⟨b', hb, b1⟩ := (ih2 l2).2 _ h2
        exact ⟨_, .plus ha hb, happ _ _ _ _ a1 b1⟩
      | other _ h2 => exact absurd rfl (h2 _ _ _ _ _)
  | select hk =>
    intro hl
    cases hl with
    | select hl =>
      refine ⟨.select (entries_lists hk hl), fun v hv => ?_⟩
      obtain ⟨k1, k2⟩ := entries_edit hk
      cases hv with
      | select h1 h2 h3 =>
        obtain ⟨kv', h2', hed⟩ := k2 _ _ h2
        rw [← k1] at h1
        cases hed with
        | list r =>
          have := eval_unique w .list _ h3
          subst this
          exact ⟨_, .select h1 h2' .list, r⟩
        | other hno =>
          obtain ⟨l, hl⟩ := hl _ (List.mem_of_getElem? h2)
          exact absurd hl (hno l)
      | other _ _ h3 => exact absurd ⟨_, _, _, _, _, _, _, _, _, _, _, _, _, rfl⟩ h3
  | other h1 h2 h3 =>
    intro hl
    cases hl with
    | list => exact absurd rfl (h1 _ _ _ _ _)
    | plus => exact absurd rfl (h2 _ _ _ _ _)
    | select => exact absurd ⟨_, _, _, _, _, _, _, _, _, _, _, _, _, rfl⟩ h3

end Verif.Props.Commands
