import Verif.Props.CommandSem
/-
C64, continued: removing, moving, replacing and substituting values.
-/
namespace Verif.Props.Commands
open Verif Verif.Syntax Verif.Edit Verif.Cmd Verif.Walk Verif.Props.Attr Verif.Props.ListEdit Verif.Props.Select

/-! ### Attributes defined once -/

theorem keys_append (a b : List Expr) : attrKeys (a ++ b) = attrKeys a ++ attrKeys b := by
  induction a with
  | nil => rfl
  | cons x a ih =>
    rw [List.cons_append]
    by_cases h : ∃ c i p o lb r, x = .assign c (.ident i) p o lb r
    · obtain ⟨c, i, p, o, lb, r, rfl⟩ := h
      simp only [attrKeys, ih, List.cons_append]
    · have e : ∀ l, attrKeys (x :: l) = attrKeys l := by
        intro l
        rw [attrKeys]
        intro c i p o lb r hx
        exact h ⟨_, _, _, _, _, _, hx⟩
      rw [e, e, ih]

theorem first_of_notNil {name : Bytes} {args : List Expr} (h : (attr name args).isNil = false) : ∃ pre d post, FirstDef args name pre d post := by
  rcases exists_first name args with hn | h'
  · rw [(C27_get args name).2 hn] at h; cases h
  · exact h'

theorem keys_defines {name : Bytes} {d : Expr} (h : Defines name d) : attrKeys [d] = [name] := by
  obtain ⟨c, i, p, o, lb, r, rfl, rfl⟩ := h
  rfl

theorem once_post {name : Bytes} {args pre : List Expr} {d : Expr} {post : List Expr} (hf : FirstDef args name pre d post) (h : Once name args) :
    ∀ x ∈ post, ¬ Defines name x := by
  intro x hx hd
  unfold Once at h
  rw [hf.1, show pre ++ d :: post = pre ++ ([d] ++ post) from rfl, keys_append, keys_append, keys_defines hf.2.1, List.count_append, List.count_append] at h
  have : name ∈ attrKeys post := (C27_keys post name .nil).1.mpr ⟨x, hx, hd⟩
  have := List.count_pos_iff.mpr this
  simp at h
  omega

theorem attr_del_once {name : Bytes} {args : List Expr} (hn : (attr name args).isNil = false) (h : Once name args) :
    attr name (delAttr name args).1 = .nil := by
  obtain ⟨pre, d, post, hf⟩ := first_of_notNil hn
  exact (C27_get_delete args name).1 pre d post hf (once_post hf h)

theorem once_set {name : Bytes} {args : List Expr} (hn : (attr name args).isNil = false) (h : Once name args) (v : Expr) :
    Once name (setAttr name v args) := by
  obtain ⟨pre, d, post, hf⟩ := first_of_notNil hn
  unfold Once
  rw [(C27_keys args name v).2, if_pos ((C27_keys args name v).1.mpr ⟨d, by rw [hf.1]; simp, hf.2.1⟩)]
  exact h

theorem once_set_other {name other : Bytes} {args : List Expr} (hne : name ≠ other) (h : Once name args) (v : Expr) :
    Once name (setAttr other v args) := by
  unfold Once
  rw [(C27_keys args other v).2]
  split
  · exact h
  · have h0 : List.count name [other] = 0 := List.count_eq_zero.mpr (by simpa using hne)
    rw [List.count_append, h0]
    exact h

theorem once_del {name : Bytes} {args : List Expr} (h : Once name args) (k : Bytes) : Once name (delAttr k args).1 := by
  rcases exists_first k args with hn | ⟨pre, d, post, hf⟩
  · rw [(C27_delete args k).2 hn]; exact h
  · rw [(C27_delete args k).1 _ _ _ hf]
    unfold Once at *
    rw [hf.1, show pre ++ d :: post = pre ++ ([d] ++ post) from rfl, keys_append, keys_append, List.count_append, List.count_append] at h
    rw [keys_append, List.count_append]
    omega

/-! ### Removing -/

/-- the state of the attribute: it is missing (and counts as empty), or it is made of lists and has the value `v` -/
def Holds (w : World) (name : Bytes) (args : List Expr) (v : List Expr) : Prop :=
  (attr name args = .nil ∧ v = []) ∨ (Literal (attr name args) ∧ Eval w (attr name args) v)

theorem literal_notNil {e : Expr} (h : Literal e) : e.isNil = false := by cases h <;> rfl

open Classical in
/-- the elements that are kept -/
noncomputable def keep (P : Expr → Prop) (v : List Expr) : List Expr := v.filter fun x => decide (¬ P x)

theorem keep_append (P : Expr → Prop) (a b : List Expr) : keep P (a ++ b) = keep P a ++ keep P b := by simp [keep]

theorem keep_keep (P Q : Expr → Prop) (v : List Expr) : keep Q (keep P v) = keep (fun x => P x ∨ Q x) v := by
  unfold keep
  rw [List.filter_filter]
  congr 1
  funext x
  by_cases h1 : P x <;> by_cases h2 : Q x <;> simp [h1, h2]

theorem keep_false (v : List Expr) : keep (fun _ => False) v = v := by simp [keep]

theorem listDelete_nil (dwc : Bool) (name item pkg : Bytes) (args : List Expr) (h : attr name args = .nil) :
    listAttributeDelete dwc name item pkg args = (args, none) := by
  unfold listAttributeDelete
  rw [h]
  rfl

theorem delete_edit (dwc : Bool) {arg item : Bytes} (pkg : Bytes) (hi : ItemOf arg item) (e : Expr) :
    ListsEdit (fun l l' => l' = keep (Removed dwc item pkg) l) (fun l l' => l' = keep (Removed dwc item pkg) l) e (listDelete dwc arg pkg e).1 := by
  refine (C31_exact dwc arg item pkg hi e).imp (fun l l' h => ?_) (fun l l' h => ?_) <;>
    (rw [h]; unfold keep; congr)

theorem delete_holds (w : World) {dwc : Bool} {name arg item pkg : Bytes} (hi : ItemOf arg item) {args : List Expr} {v : List Expr} (h1 : Once name args)
    (hv : Holds w name args v) : Once name (listAttributeDelete dwc name arg pkg args).1 ∧
      Holds w name (listAttributeDelete dwc name arg pkg args).1 (keep (Removed dwc item pkg) v) := by
  rcases hv with ⟨hn, rfl⟩ | ⟨hl, hv⟩
  · rw [listDelete_nil _ _ _ _ _ hn]
    exact ⟨h1, .inl ⟨hn, rfl⟩⟩
  · have hn := literal_notNil hl
    obtain ⟨_, c1, c2⟩ := C31_attribute dwc name arg pkg args hn
    obtain ⟨hl', hev⟩ := eval_edit w (fun a a' b b' e1 e2 => by rw [e1, e2, keep_append]) (delete_edit dwc pkg hi _) hl
    obtain ⟨v', g1, g2⟩ := hev v hv
    by_cases hc : (listDelete dwc arg pkg (attr name args)).2 ≠ none ∧ (∃ c p t m, (listDelete dwc arg pkg (attr name args)).1 = .list c p [] t m)
    · rw [c1 hc]
      refine ⟨once_del h1 _, .inl ⟨attr_del_once hn h1, ?_⟩⟩
      obtain ⟨_, c, p, t, m, he⟩ := hc
      rw [he] at g1
      have := eval_unique w .list _ g1
      rw [← g2, this]
    · rw [c2 hc]
      refine ⟨once_set hn h1 _, .inr ?_⟩
      rw [C27_get_set, ← g2]
      exact ⟨hl', g1⟩

theorem removedBy_cons (E : Env) (arg : Bytes) (vals : List Bytes) {item : Bytes} (hi : ItemOf arg item) (x : Expr) :
    RemovedBy E (arg :: vals) x ↔ Removed E.dwc item E.pkg x ∨ RemovedBy E vals x := by
  constructor
  · rintro ⟨a, ha, it, h1, h2⟩
    rcases List.mem_cons.mp ha with rfl | ha
    · rw [itemOf_unique hi h1]; exact .inl h2
    · exact .inr ⟨a, ha, it, h1, h2⟩
  · rintro (h | ⟨a, ha, it, h1, h2⟩)
    · exact ⟨arg, List.mem_cons_self .., item, hi, h⟩
    · exact ⟨a, List.mem_cons_of_mem _ ha, it, h1, h2⟩

theorem fold_delete (w : World) (E : Env) (name : Bytes) : ∀ (vals : List Bytes) (args : List Expr) (v : List Expr), Once name args → Holds w name args v →
    Once name (vals.foldl (fun args a => (listAttributeDelete E.dwc name a E.pkg args).1) args) ∧
    Holds w name (vals.foldl (fun args a => (listAttributeDelete E.dwc name a E.pkg args).1) args) (keep (RemovedBy E vals) v)
  | [], args, v, h1, hv => by
    have : keep (RemovedBy E []) v = v := by
      rw [show RemovedBy E [] = fun _ => False from by
        funext x; simp [RemovedBy], keep_false]
    rw [this]
    exact ⟨h1, hv⟩
  | a :: vals, args, v, h1, hv => by
    obtain ⟨g1, g2⟩ := delete_holds w (dwc := E.dwc) (pkg := E.pkg) (getStringValue_item a) h1 hv
    obtain ⟨k1, k2⟩ := fold_delete w E name vals _ _ g1 g2
    refine ⟨k1, ?_⟩
    rw [keep_keep] at k2
    rw [show RemovedBy E (a :: vals) = fun x => Removed E.dwc (getStringValue a) E.pkg x ∨ RemovedBy E vals x from by
      funext x; exact propext (removedBy_cons E a vals (getStringValue_item a) x)]
    exact k2

theorem isEmptyList_iff (e : Expr) : isEmptyList e = true ↔ ∃ c p t m, e = .list c p [] t m := by
  unfold isEmptyList
  split
  · exact ⟨fun _ => ⟨_, _, _, _, rfl⟩, fun _ => rfl⟩
  · rename_i h
    exact ⟨(fun h => by cases h), fun ⟨c, p, t, m, he⟩ => absurd he (h c p t m)⟩

/-- **C64 (remove values).** If the attribute is made of lists and selects of lists and has the value `v` under a configuration, then
after `remove` it has the elements of `v` that do not match an argument, and no others (up to order, repetition and spelling); an
attribute that becomes an empty list is deleted. -/
theorem C64_remove (w : World) (ho : w.opaque_ .nil = none) (E : Env) (name : Bytes) (vals : List Bytes) (st : St) (v : List Expr)
    (hstar : name ≠ b!"*") (hne : vals ≠ []) (hone : Once name st.args) (hlit : Literal (attr name st.args)) (hv : Eval w (attr name st.args) v) :
    (cmdRemove E name vals st).file = true ∧ (cmdRemove E name vals st).err = false ∧
    ((attr name (cmdRemove E name vals st).st.args = .nil ∧ keep (RemovedBy E vals) v = []) ∨
      ∃ v', Eval w (attr name (cmdRemove E name vals st).st.args) v' ∧ SameSet E.pkg (keep (RemovedBy E vals) v) v') := by
  have hcmd : cmdRemove E name vals st = done { st with args := removeValues E vals st.args name } := by
    unfold cmdRemove keysFor
    rw [if_neg hne, if_neg hstar]
    rfl
  rw [hcmd]
  refine ⟨rfl, rfl, ?_⟩
  obtain ⟨h1, h2⟩ := fold_delete w E name vals st.args v hone (.inr ⟨hlit, hv⟩)
  show (attr name (removeValues E vals st.args name) = .nil ∧ _) ∨ ∃ v', Eval w (attr name (removeValues E vals st.args name)) v' ∧ _
  unfold removeValues
  dsimp only
  generalize vals.foldl (fun args a => (listAttributeDelete E.dwc name a E.pkg args).1) st.args = args at h1 h2
  rcases h2 with ⟨hn, hk⟩ | ⟨_, hev⟩
  · have hres : resolveAttr E.dwc name E.pkg args = args := by unfold resolveAttr; rw [hn]; rfl
    rw [hres, hn]
    exact .inl ⟨by rw [if_neg (by simp [isEmptyList])]; exact hn, hk⟩
  · obtain ⟨v', g1, g2⟩ := resolve_value w ho E.dwc name E.pkg args _ hev
    have hn' := notNil_of_eval ho hev
    have hone' : Once name (resolveAttr E.dwc name E.pkg args) := by
      unfold resolveAttr
      rw [if_neg (by rw [hn']; simp)]
      exact once_set hn' h1 _
    split
    · rename_i he
      obtain ⟨c, p, t, m, he⟩ := (isEmptyList_iff _).mp he
      rw [he] at g1
      have := eval_unique w .list _ g1
      subst this
      refine .inl ⟨attr_del_once (by rw [he]; rfl) hone', ?_⟩
      cases hk : keep (RemovedBy E vals) v with
      | nil => rfl
      | cons x l =>
        rw [hk] at g2
        obtain ⟨y, hy, _⟩ := g2.1 x (List.mem_cons_self ..)
        cases hy
    · exact .inr ⟨v', g1, g2⟩

/-! ### Moving -/

theorem attr_listDelete_other (dwc : Bool) {name k : Bytes} (hne : k ≠ name) (item pkg : Bytes) (args : List Expr) :
    attr k (listAttributeDelete dwc name item pkg args).1 = attr k args := by
  have h := others_listDelete (K := [name]) (List.mem_singleton.mpr rfl) dwc item pkg args
  rw [← attr_others (K := [name]) (by simpa using hne), h, attr_others (by simpa using hne)]

theorem addToAttr_other (E : Env) {name k : Bytes} (hne : k ≠ name) (item : Expr) (st : St) :
    attr k (addToAttr E name item st).args = attr k st.args := by
  have h := (addToAttr_keeps (K := [name]) (List.mem_singleton.mpr rfl) E item st).args
  rw [← attr_others (K := [name]) (by simpa using hne), h, attr_others (by simpa using hne)]

theorem addToAttr_once (E : Env) {name k : Bytes} (hne : k ≠ name) (item : Expr) (st : St) (h : Once k st.args) :
    Once k (addToAttr E name item st).args := by
  unfold addToAttr
  split
  · exact h
  · exact once_set_other hne h _

theorem delete_result (dwc : Bool) {arg item : Bytes} (pkg : Bytes) (hi : ItemOf arg item) (e : Expr) :
    (∀ s, (listDelete dwc arg pkg e).2 = some s → Removed dwc item pkg (.string s) ∧ (InLists (.string s) e ∨ InSelects (.string s) e)) ∧
    ((listDelete dwc arg pkg e).2 = none → ∀ x, (InLists x e ∨ InSelects x e) → ¬ Removed dwc item pkg x) := by
  obtain ⟨r1, r2⟩ := C31_result dwc arg item pkg hi e
  constructor
  · intro s hs
    by_cases hx : ∃ x, (InLists x e ∨ InSelects x e) ∧ Removed dwc item pkg x
    · obtain ⟨s', h1, h2, h3⟩ := r1 hx
      rw [hs] at h1
      cases h1
      exact ⟨h2, h3⟩
    · rw [r2 hx] at hs; cases hs
  · intro hs x hx hr
    obtain ⟨s', h1, _⟩ := r1 ⟨x, hx, hr⟩
    rw [hs] at h1; cases h1

/-- an element of a list or of a select branch of the expression -/
def Elem (x e : Expr) : Prop := InLists x e ∨ InSelects x e

theorem elem_nil (x : Expr) : ¬ Elem x .nil := by
  rintro (⟨_, _, _, _, _, h, _⟩ | ⟨_, _, _, _, _, _, _, _, _, _, _, _, _, _, _, h, _⟩) <;> cases h

theorem removed_same {dwc : Bool} {item pkg : Bytes} {x y : Expr} (hx : Removed dwc item pkg x) (hy : Removed dwc item pkg y) : Same pkg x y := by
  obtain ⟨s, rfl, h, _⟩ := hx
  obtain ⟨s', rfl, h', _⟩ := hy
  exact .inr ⟨s, s', rfl, rfl, equal_trans h (equal_symm h')⟩

/-- elements after deletion from an attribute -/
theorem elem_delete {dwc : Bool} {name arg item pkg : Bytes} (hi : ItemOf arg item) {args : List Expr} (h1 : Once name args) (x : Expr) :
    Elem x (attr name (listAttributeDelete dwc name arg pkg args).1) ↔ Elem x (attr name args) ∧ ¬ Removed dwc item pkg x := by
  by_cases hn : attr name args = .nil
  · rw [listDelete_nil _ _ _ _ _ hn, hn]
    exact ⟨fun h => absurd h (elem_nil x), fun h => absurd h.1 (elem_nil x)⟩
  · have hn' : (attr name args).isNil = false := by
      cases h : (attr name args).isNil with
      | false => rfl
      | true =>
        have : attr name args = .nil := by
          generalize attr name args = e at h
          cases e <;> simp_all [Expr.isNil]
        exact absurd this hn
    obtain ⟨_, c1, c2⟩ := C31_attribute dwc name arg pkg args hn'
    have hel := C31_elements dwc arg item pkg hi (attr name args) x
    have hdel : Elem x (listDelete dwc arg pkg (attr name args)).1 ↔ Elem x (attr name args) ∧ ¬ Removed dwc item pkg x := by
      unfold Elem
      rw [hel.1, hel.2]
      exact ⟨fun h => h.elim (fun h => ⟨.inl h.1, h.2⟩) (fun h => ⟨.inr h.1, h.2⟩),
        fun ⟨h, h'⟩ => h.elim (fun h => .inl ⟨h, h'⟩) (fun h => .inr ⟨h, h'⟩)⟩
    by_cases hc : (listDelete dwc arg pkg (attr name args)).2 ≠ none ∧ (∃ c p t m, (listDelete dwc arg pkg (attr name args)).1 = .list c p [] t m)
    · rw [c1 hc, attr_del_once hn' h1, ← hdel]
      obtain ⟨_, c, p, t, m, he⟩ := hc
      rw [he]
      constructor
      · intro h; exact absurd h (elem_nil x)
      · rintro (⟨_, _, _, _, _, h, hx⟩ | ⟨_, _, _, _, _, _, _, _, _, _, _, _, _, _, _, h, _⟩)
        · cases h; cases hx
        · cases h
    · rw [c2 hc, C27_get_set]
      exact hdel

theorem fold_move (w : World) (ho : w.opaque_ .nil = none) (E : Env) (old new : Bytes) (hne : old ≠ new) : ∀ (vals : List Bytes) (s : St × Bool)
    (v v2 : List Expr), Once old s.1.args → Holds w old s.1.args v → ¬ IsVariable new s.1 → ValueOr w (attr new s.1.args) v2 →
    ∃ ds v2', Holds w old (vals.foldl (moveOne E old new) s).1.args (keep (RemovedBy E vals) v) ∧
      ValueOr w (attr new (vals.foldl (moveOne E old new) s).1.args) v2' ∧ SameSet E.pkg (v2 ++ ds) v2' ∧
      (∀ d ∈ ds, RemovedBy E vals d ∧ Elem d (attr old s.1.args)) ∧
      (∀ x, Elem x (attr old s.1.args) → RemovedBy E vals x → ∃ d ∈ ds, Same E.pkg x d) ∧
      ((vals.foldl (moveOne E old new) s).2 = true ↔ s.2 = true ∨ ds ≠ [])
  | [], s, v, v2, _, hv, _, hv2 => by
    refine ⟨[], v2, ?_, hv2, by rw [List.append_nil]; exact sameSet_refl _ _, by simp, ?_, by simp⟩
    · have : keep (RemovedBy E []) v = v := by
        rw [show RemovedBy E [] = fun _ => False from by
          funext x; simp [RemovedBy], keep_false]
      rw [this]
      exact hv
    · rintro x _ ⟨a, ha, _⟩; cases ha
  | a :: vals, s, v, v2, h1, hv, hvar, hv2 => by
    have hi := getStringValue_item a
    obtain ⟨g1, g2⟩ := delete_holds w (dwc := E.dwc) (pkg := E.pkg) hi h1 hv
    have helem := fun x => elem_delete (dwc := E.dwc) (pkg := E.pkg) hi h1 x
    have hnew := attr_listDelete_other E.dwc (k := new) hne.symm a E.pkg s.1.args
    -- the result of the deletion
    have hres : (∀ t, (listAttributeDelete E.dwc old a E.pkg s.1.args).2 = some t → Removed E.dwc (getStringValue a) E.pkg (.string t) ∧
          Elem (.string t) (attr old s.1.args)) ∧
        ((listAttributeDelete E.dwc old a E.pkg s.1.args).2 = none → ∀ x, Elem x (attr old s.1.args) → ¬ Removed E.dwc (getStringValue a) E.pkg x) := by
      by_cases hn : attr old s.1.args = .nil
      · rw [listDelete_nil _ _ _ _ _ hn, hn]
        exact ⟨(fun t ht => by cases ht), fun _ x hx => absurd hx (elem_nil x)⟩
      · have hn' : (attr old s.1.args).isNil = false := by
          rcases hv with ⟨hv, _⟩ | ⟨hv, _⟩
          · exact absurd hv hn
          · exact literal_notNil hv
        rw [(C31_attribute E.dwc old a E.pkg s.1.args hn').1]
        exact delete_result E.dwc E.pkg hi _
    have hkeep : keep (RemovedBy E vals) (keep (Removed E.dwc (getStringValue a) E.pkg) v) = keep (RemovedBy E (a :: vals)) v := by
      rw [keep_keep]
      rw [show RemovedBy E (a :: vals) = fun x => Removed E.dwc (getStringValue a) E.pkg x ∨ RemovedBy E vals x from by
        funext x; exact propext (removedBy_cons E a vals hi x)]
    rw [List.foldl_cons]
    cases hd : (listAttributeDelete E.dwc old a E.pkg s.1.args).2 with
    | none =>
      have hstep : moveOne E old new s a = ({ s.1 with args := (listAttributeDelete E.dwc old a E.pkg s.1.args).1 }, s.2) := by
        unfold moveOne; dsimp only; rw [hd]
      rw [hstep]
      obtain ⟨ds, v2', k1, k2, k3, k4, k5, k6⟩ := fold_move w ho E old new hne vals
        ({ s.1 with args := (listAttributeDelete E.dwc old a E.pkg s.1.args).1 }, s.2) _ v2 g1 g2
        (by rintro ⟨i, h, h'⟩; exact hvar ⟨i, by rw [← hnew]; exact h, h'⟩) (by show ValueOr w (attr new _) v2; rw [hnew]; exact hv2)
      refine ⟨ds, v2', by rw [← hkeep]; exact k1, k2, k3, ?_, ?_, k6⟩
      · intro d hd'
        obtain ⟨e1, e2⟩ := k4 d hd'
        exact ⟨(removedBy_cons E a vals hi d).mpr (.inr e1), ((helem d).mp e2).1⟩
      · intro x hx hr
        rcases (removedBy_cons E a vals hi x).mp hr with h | h
        · exact absurd h (hres.2 hd x hx)
        · exact k5 x ((helem x).mpr ⟨hx, hres.2 hd x hx⟩) h
    | some t =>
      have hstep : moveOne E old new s a = (addToAttr E new (.string t) { s.1 with args := (listAttributeDelete E.dwc old a E.pkg s.1.args).1 }, true) := by
        unfold moveOne; dsimp only; rw [hd]
      rw [hstep]
      have hvar' : ¬ IsVariable new { s.1 with args := (listAttributeDelete E.dwc old a E.pkg s.1.args).1 } := by
        rintro ⟨i, h, h'⟩; exact hvar ⟨i, by rw [← hnew]; exact h, h'⟩
      obtain ⟨v3, e1, e2⟩ := eval_addOr w ho E.dwc _ E.pkg (.string t) (!mustNotBeSorted new) v2 hv2
      have hadd := (addToAttr_args (E := E) hvar' (.string t)).2
      dsimp only at hadd
      rw [hnew] at hadd
      have hold := addToAttr_other E (k := old) hne (.string t) { s.1 with args := (listAttributeDelete E.dwc old a E.pkg s.1.args).1 }
      obtain ⟨ds, v2', k1, k2, k3, k4, k5, k6⟩ := fold_move w ho E old new hne vals
        (addToAttr E new (.string t) { s.1 with args := (listAttributeDelete E.dwc old a E.pkg s.1.args).1 }, true) _ v3
        (addToAttr_once E hne _ _ g1) (by unfold Holds at *; rw [hold]; exact g2) (addToAttr_notVar hvar' _) (.inl (by rw [hadd]; exact e1))
      refine ⟨.string t :: ds, v2', by rw [← hkeep]; exact k1, k2, ?_, ?_, ?_, by simp [k6]⟩
      · have := sameSet_append ds e2
        rw [List.append_assoc] at this
        exact sameSet_trans this k3
      · intro d hd'
        rcases List.mem_cons.mp hd' with rfl | hd'
        · exact ⟨(removedBy_cons E a vals hi _).mpr (.inl (hres.1 t hd).1), (hres.1 t hd).2⟩
        · obtain ⟨f1, f2⟩ := k4 d hd'
          dsimp only at f2
          rw [hold] at f2
          exact ⟨(removedBy_cons E a vals hi d).mpr (.inr f1), ((helem d).mp f2).1⟩
      · intro x hx hr
        by_cases hx0 : Removed E.dwc (getStringValue a) E.pkg x
        · exact ⟨_, List.mem_cons_self .., removed_same hx0 (hres.1 t hd).1⟩
        · rcases (removedBy_cons E a vals hi x).mp hr with h | h
          · exact absurd h hx0
          · obtain ⟨d, hd', hs⟩ := k5 x (by dsimp only; rw [hold]; exact (helem x).mpr ⟨hx, hx0⟩) h
            exact ⟨d, List.mem_cons_of_mem _ hd', hs⟩

/-- **C64 (move values).** `move old new values`: exactly the matching elements leave the old attribute (which is deleted if it
becomes an empty list). One element for each label that was removed is added to the new attribute, and nothing else. The
file counts as changed exactly if something was moved. -/
theorem C64_move (w : World) (ho : w.opaque_ .nil = none) (E : Env) (old new : Bytes) (vals : List Bytes) (st : St) (v v2 : List Expr)
    (hne : old ≠ new) (hstar : vals ≠ [b!"*"]) (hone : Once old st.args) (hlit : Literal (attr old st.args)) (hv : Eval w (attr old st.args) v)
    (hvar : ¬ IsVariable new st) (hv2 : ValueOr w (attr new st.args) v2) :
    ∃ ds v2',
      ((attr old (cmdMove E old new vals st).st.args = .nil ∧ keep (RemovedBy E vals) v = []) ∨
        Eval w (attr old (cmdMove E old new vals st).st.args) (keep (RemovedBy E vals) v)) ∧
      ValueOr w (attr new (cmdMove E old new vals st).st.args) v2' ∧ SameSet E.pkg (v2 ++ ds) v2' ∧
      (∀ d ∈ ds, RemovedBy E vals d ∧ Elem d (attr old st.args)) ∧
      (∀ x, Elem x (attr old st.args) → RemovedBy E vals x → ∃ d ∈ ds, Same E.pkg x d) ∧
      ((cmdMove E old new vals st).file = true ↔ ds ≠ []) ∧ (cmdMove E old new vals st).err = false := by
  obtain ⟨ds, v2', k1, k2, k3, k4, k5, k6⟩ := fold_move w ho E old new hne vals (st, false) v v2 hone (.inr ⟨hlit, hv⟩) hvar hv2
  have hst : (cmdMove E old new vals st).st = (vals.foldl (moveOne E old new) (st, false)).1 ∧
      (cmdMove E old new vals st).file = (vals.foldl (moveOne E old new) (st, false)).2 ∧ (cmdMove E old new vals st).err = false := by
    unfold cmdMove
    rw [if_neg hstar]
    dsimp only
    split
    · rename_i h; exact ⟨rfl, h.symm, rfl⟩
    · rename_i h; exact ⟨rfl, by simpa [nothing] using h, rfl⟩
  refine ⟨ds, v2', ?_, ?_, k3, k4, k5, ?_, hst.2.2⟩
  · rw [hst.1]
    exact k1.imp (fun h => h) (fun h => h.2)
  · rw [hst.1]; exact k2
  · rw [hst.2.1, k6]; simp

/-- **C64 (move all, failure).** If both attributes are there and the old one is not a plain list (a sum, a `select`, a variable), `move old new *` fails
and changes nothing. -/
theorem C64_move_all_fails (E : Env) (old new : Bytes) (st : St) (h1 : (attr old st.args).isNil = false) (h2 : (attr new st.args).isNil = false)
    (h : ∀ c p l t m, attr old st.args ≠ .list c p l t m) : cmdMove E old new [b!"*"] st = fails st := by
  have hm : moveAll E old new st = (st, false) := by
    unfold moveAll
    rw [h1, h2]
    simp only [Bool.false_eq_true, if_false]
  unfold cmdMove
  rw [if_pos rfl, hm]
  rfl

/-- **C64 (move all).** `move old new *`, where the old attribute is a plain list: all its elements are added to the new attribute, and
the old one is deleted. If there is no new attribute the old one is renamed. -/
theorem C64_move_all (w : World) (ho : w.opaque_ .nil = none) (E : Env) (old new : Bytes) (st : St) (hne : old ≠ new) (hone : Once old st.args) :
    (attr old st.args = .nil → cmdMove E old new [b!"*"] st = fails st) ∧
    ((attr old st.args).isNil = false → (∀ x ∈ st.args, ¬ Defines new x) →
      (cmdMove E old new [b!"*"] st).err = false ∧ attr new (cmdMove E old new [b!"*"] st).st.args = attr old st.args) ∧
    (∀ c p l t m v2, attr old st.args = .list c p l t m → Eval w (attr new st.args) v2 → ¬ IsVariable new st →
      (cmdMove E old new [b!"*"] st).err = false ∧ attr old (cmdMove E old new [b!"*"] st).st.args = .nil ∧
      ∃ v2', Eval w (attr new (cmdMove E old new [b!"*"] st).st.args) v2' ∧ SameSet E.pkg (v2 ++ l) v2') := by
  have hcmd : cmdMove E old new [b!"*"] st = if (moveAll E old new st).2 then done (moveAll E old new st).1 else fails (moveAll E old new st).1 := by
    unfold cmdMove
    rw [if_pos rfl]
  rw [hcmd]
  refine ⟨?_, ?_, ?_⟩
  · intro h
    have : moveAll E old new st = (st, false) := by unfold moveAll; rw [h]; rfl
    rw [this]; rfl
  · intro h hnew
    have hnil : attr new st.args = .nil := (C27_get st.args new).2 hnew
    have hm : moveAll E old new st = ({ st with args := (renameAttribute old new st.args).getD st.args }, true) := by
      unfold moveAll; rw [h, hnil]; rfl
    rw [hm]
    refine ⟨rfl, ?_⟩
    obtain ⟨pre, d, post, hf⟩ := first_of_notNil h
    have hr := (C27_rename st.args old new).2.2 pre d post (by rw [hnil]; rfl) hf
    have := (C27_rename_value st.args _ old new hr hnew).1
    show attr new ((renameAttribute old new st.args).getD st.args) = _
    rw [hr]
    exact this
  · intro c p l t m v2 hl hv2 hvar
    have hm : moveAll E old new st = ({ l.foldl (fun st x => addToAttr E new x st) st with args := (delAttr old (l.foldl (fun st x => addToAttr E new x st) st).args).1 }, true) := by
      unfold moveAll
      rw [hl, notNil_of_eval ho hv2]
      rfl
    rw [hm]
    obtain ⟨v2', h1, h2, h3, h4⟩ := fold_addToAttr w ho E new l st v2 hvar (.inl hv2)
    have hk : attr old (l.foldl (fun st x => addToAttr E new x st) st).args = attr old st.args ∧ Once old (l.foldl (fun st x => addToAttr E new x st) st).args := by
      clear hl hm h1 h2 h3 h4 hvar hv2 hcmd
      induction l generalizing st with
      | nil => exact ⟨rfl, hone⟩
      | cons x l ih =>
        obtain ⟨e1, e2⟩ := ih (addToAttr E new x st) (addToAttr_once E hne x st hone)
        exact ⟨e1.trans (addToAttr_other E hne x st), e2⟩
    refine ⟨rfl, attr_del_once (by rw [hk.1, hl]; rfl) hk.2, v2', ?_, h2⟩
    show Eval w (attr new (delAttr old _).1) v2'
    rw [(C27_get_delete _ old).2 new hne.symm]
    rcases h1 with h1 | ⟨h1, hv⟩
    · exact h1
    · cases l with
      | nil => rw [List.foldl_nil] at h1; rw [h1] at hv2; exact absurd hv2 (not_eval_nil w ho _)
      | cons x l => exact h3 (by simp)

/-! ### Replacing and substituting -/

theorem forall2_append {α β : Type} {R : α → β → Prop} {a : List α} {a' : List β} {b : List α} {b' : List β} (h : Forall2 R a a') (h' : Forall2 R b b') :
    Forall2 R (a ++ b) (a' ++ b') := by
  induction h with
  | nil => exact h'
  | cons h _ ih => exact .cons h ih

/-- **C64 (replace in lists).** Under every configuration, the elements with the old label are replaced, and nothing else changes. -/
theorem C64_replace_list (w : World) (E : Env) (name oldA newA o n : Bytes) (st : St) (v : List Expr) (hstar : name ≠ b!"*")
    (ho : ItemOf oldA o) (hn : ItemOf newA n) (hlit : Literal (attr name st.args)) (hp : PlainSelects (attr name st.args))
    (hv : Eval w (attr name st.args) v) :
    ∃ v', Eval w (attr name (cmdReplace E name oldA newA st).st.args) v' ∧ Replaced E.short o n E.pkg v v' := by
  have e1 : getStringValue oldA = o := itemOf_unique (getStringValue_item _) ho
  have e2 : getStringValue newA = n := itemOf_unique (getStringValue_item _) hn
  have hr : (cmdReplace E name oldA newA st).st.args = setAttr name (listReplace E.short o n E.pkg (attr name st.args)).1 st.args := by
    unfold cmdReplace keysFor done
    rw [if_neg hstar, e1, e2]
    show replaceKey E o n st.args name = _
    unfold replaceKey
    generalize attr name st.args = e at hlit
    cases hlit <;> rfl
  rw [hr, C27_get_set]
  exact (eval_edit w (fun a a' b b' h h' => forall2_append h h') ((C32_exact E.short o n E.pkg _).1 hp) hlit).2 v hv

/-- **C64 (replace a string).** -/
theorem C64_replace_string (E : Env) (name oldA newA o n : Bytes) (st : St) (s : StringN) (hstar : name ≠ b!"*") (ho : ItemOf oldA o)
    (hn : ItemOf newA n) (ha : attr name st.args = .string s) :
    (Labels.equal s.value o E.pkg = true → attr name (cmdReplace E name oldA newA st).st.args = attrValue E name [n]) ∧
    (Labels.equal s.value o E.pkg = false → (cmdReplace E name oldA newA st).st = st) := by
  have e1 : getStringValue oldA = o := itemOf_unique (getStringValue_item _) ho
  have e2 : getStringValue newA = n := itemOf_unique (getStringValue_item _) hn
  have hr : (cmdReplace E name oldA newA st).st = { st with args := replaceKey E o n st.args name } := by
    unfold cmdReplace keysFor done
    rw [if_neg hstar, e1, e2]
    rfl
  rw [hr]
  constructor
  · intro h
    show attr name (replaceKey E o n st.args name) = _
    unfold replaceKey
    rw [ha]
    simp only [h, if_true]
    exact C27_get_set ..
  · intro h
    unfold replaceKey
    rw [ha]
    simp [h]

/-- The regular expression matches the middle of `s`; `r` is `s` with the match replaced by the expanded template. -/
def Substituted (re : Regexp) (s r : Bytes) : Prop :=
  ∃ pre mid post, s = pre ++ mid ++ post ∧ re.find s = some (pre.length, (pre ++ mid).length) ∧ r = pre ++ re.expand s ++ post

/-- what a regular expression engine guarantees -/
def _root_.Verif.Cmd.Regexp.Proper (re : Regexp) : Prop := ∀ s a b, re.find s = some (a, b) → a ≤ b ∧ b ≤ s.length

theorem substitute_spec (re : Regexp) (hp : re.Proper) (s : Bytes) :
    (re.find s = none → substitute re s = none) ∧ (re.find s ≠ none → ∃ r, substitute re s = some r ∧ Substituted re s r) := by
  unfold substitute
  constructor
  · intro h; rw [h]
  · intro h
    cases hf : re.find s with
    | none => exact absurd hf h
    | some q =>
      obtain ⟨a, b⟩ := q
      obtain ⟨h1, h2⟩ := hp s a b hf
      refine ⟨_, rfl, s.take a, (s.drop a).take (b - a), s.drop b, ?_, ?_, ?_⟩
      · have e : (s.take a ++ (s.drop a).take (b - a)) = s.take b := by
          rw [show b = a + (b - a) by omega, List.take_add]; simp
        rw [e, List.take_append_drop]
      · rw [hf]
        have e : (s.take a ++ (s.drop a).take (b - a)) = s.take b := by
          rw [show b = a + (b - a) by omega, List.take_add]; simp
        rw [e, List.length_take, List.length_take]
        simp only [Option.some.injEq, Prod.mk.injEq]
        omega
      · congr 1
        · congr 1
          split
          · rfl
          · rw [show a = 0 by omega]; rfl
        · split
          · rfl
          · rw [List.drop_eq_nil_of_le (by omega)]

/-- element by element, strings that match are substituted, all else is kept -/
def SubstitutedL (re : Regexp) (l l' : List Expr) : Prop :=
  Forall2 (fun x x' => (∀ s, x = .string s → re.find s.value ≠ none → ∃ r, Substituted re s.value r ∧ x' = .string { value := r, comments := s.comments }) ∧
    ((∀ s, x = .string s → re.find s.value = none) → x' = x)) l l'

theorem subst_map (re : Regexp) (hp : re.Proper) (l : List Expr) : SubstitutedL re l (l.map (substElem re)) := by
  induction l with
  | nil => exact .nil
  | cons x l ih =>
    refine .cons ⟨?_, ?_⟩ ih
    · rintro s rfl hs
      obtain ⟨r, h1, h2⟩ := (substitute_spec re hp s.value).2 hs
      exact ⟨r, h2, by simp [substElem, h1]⟩
    · intro h
      unfold substElem
      split
      · rename_i s
        rw [(substitute_spec re hp s.value).1 (h s rfl)]
      · rfl

/-- **C64 (substitute in lists).** Under every configuration, the elements that match are substituted, and nothing else changes. -/
theorem C64_substitute_list (w : World) (E : Env) (name : Bytes) (re : Regexp) (hre : re.Proper) (st : St) (v : List Expr) (hstar : name ≠ b!"*")
    (hlit : Literal (attr name st.args)) (hp : PlainSelects (attr name st.args)) (hv : Eval w (attr name st.args) v) :
    ∃ v', Eval w (attr name (cmdSubstitute E name (some re) st).st.args) v' ∧ SubstitutedL re v v' := by
  have hr : (cmdSubstitute E name (some re) st).st.args = setAttr name (listSubstitute re (attr name st.args)) st.args := by
    unfold cmdSubstitute keysFor done
    dsimp only
    rw [if_neg hstar]
    show substituteKey E re st.args name = _
    unfold substituteKey
    generalize attr name st.args = e at hlit
    cases hlit <;> rfl
  rw [hr, C27_get_set]
  have hed : ListsEdit (SubstitutedL re) (SubstitutedL re) (attr name st.args) (listSubstitute re (attr name st.args)) := by
    unfold listSubstitute onListsIncludingSelects
    rw [if_pos ((plain_iff _).mpr hp)]
    exact (both_edit _ _ _).imp (fun l l' h => by rw [h]; exact subst_map re hre l) (fun l l' h => by rw [h]; exact subst_map re hre l)
  exact (eval_edit w (fun a a' b b' h h' => forall2_append h h') hed hlit).2 v hv

/-- **C64 (substitute, invalid expression).** An expression that does not compile is an error, and nothing changes. -/
theorem C64_substitute_invalid (E : Env) (name : Bytes) (st : St) :
    (cmdSubstitute E name none st).err = true ∧ (cmdSubstitute E name none st).file = false ∧ (cmdSubstitute E name none st).st = st :=
  ⟨rfl, rfl, rfl⟩

/-! ### Where `add` puts a value -/

/-- **C64 (add, place).** In a plain list that has no such label yet, the value goes to the end if the attribute is `args`, and in any
other attribute in front of the first element that belongs after it; nothing else changes. -/
theorem C64_add_place (E : Env) (name val : Bytes) (st : St) (c : Comments) (p : Pos) (l : List Expr) (t : EndN) (m : Bool)
    (hlist : attr name st.args = .list c p l t m) :
    ∃ x, Wanted E name val x ∧ ((∀ s, x = .string s → ∀ y ∈ l, ¬ SameLabel s.value E.pkg y) →
      ∃ pre post, l = pre ++ post ∧ attr name (cmdAdd E name [val] st).st.args = .list c p (pre ++ x :: post) t m ∧
        (name = b!"args" → post = []) ∧
        (name ≠ b!"args" → (∀ y ∈ pre, ¬ Before x y) ∧ ∀ y, post.head? = some y → Before x y)) := by
  have hvar : ¬ IsVariable name st := by
    rintro ⟨i, h, _⟩; rw [hlist] at h; cases h
  refine ⟨itemOf E name val, itemOf_wanted .., fun hfresh => ?_⟩
  have hadd : addValueToList E.dwc (.list c p l t m) E.pkg (itemOf E name val) (!mustNotBeSorted name) =
      .list c p (if (!mustNotBeSorted name) then sortedInsert (itemOf E name val) l else l ++ [itemOf E name val]) t m := by
    generalize itemOf E name val = x at hfresh
    have h0 : addValueToList E.dwc (.list c p l t m) E.pkg x (!mustNotBeSorted name) = addTo x (!mustNotBeSorted name) (.list c p l t m) := by
      unfold addValueToList
      rw [if_neg (by simp [Expr.isNil])]
      split
      · rename_i s
        rw [if_neg]
        · rfl
        · intro h
          obtain ⟨y, hy, hs⟩ := (listFind_iff _ _ _).mp h
          exact hfresh s rfl y (inLists_list.mp hy) hs
      · rfl
    rw [h0]; rfl
  have hres : attr name (cmdAdd E name [val] st).st.args =
      .list c p (if (!mustNotBeSorted name) then sortedInsert (itemOf E name val) l else l ++ [itemOf E name val]) t m := by
    show attr name (resolveAttr E.dwc name E.pkg (addToAttr E name (itemOf E name val) st).args) = _
    have h1 := (addToAttr_args (E := E) hvar (itemOf E name val)).2
    rw [hlist, hadd] at h1
    unfold resolveAttr
    rw [h1, if_neg (by simp [Expr.isNil]), C27_get_set]
    rfl
  rw [hres]
  by_cases hn : name = b!"args"
  · have : mustNotBeSorted name = true := by unfold mustNotBeSorted; exact decide_eq_true hn
    rw [this]
    exact ⟨l, [], by simp, rfl, fun _ => rfl, fun h => absurd hn h⟩
  · have : mustNotBeSorted name = false := by unfold mustNotBeSorted; exact decide_eq_false hn
    rw [this]
    obtain ⟨pre, post, h1, h2, h3, h4⟩ := C30_insert (itemOf E name val) l
    exact ⟨pre, post, h1, by rw [← h2]; rfl, fun h => absurd h hn, fun _ => ⟨h3, h4⟩⟩

/-! ### Examples -/

def exEnv : Env := ⟨true, false, fun _ => true, fun n => n = b!"shards", fun _ => true, b!"p"⟩
def kwd (n : Bytes) (v : Expr) : Expr := .assign {} (.ident { name := n }) {} b!"=" false v
def exSt : St := ⟨{}, .ident { name := b!"cc_library" }, [kwd b!"name" (.string { value := b!"x" }), kwd b!"deps" exDeps], []⟩

/-- the hypotheses of `C64_remove` and `C64_move` can be met -/
example : Once b!"deps" exSt.args ∧ Literal (attr b!"deps" exSt.args) ∧ ¬ IsVariable b!"deps" exSt ∧
    Eval exWorld (attr b!"name" exSt.args) [] = Eval exWorld (.string { value := b!"x" }) [] := by
  refine ⟨by unfold Once; decide +kernel, ?_, ?_, rfl⟩
  · refine .plus .list (.select ?_)
    intro kv hkv
    rw [List.mem_singleton.mp hkv]
    exact ⟨_, _, _, _, _, _, _, _, rfl⟩
  · rintro ⟨i, h, _⟩; cases h

/-- a run: `move deps runtime_deps a` -/
example : (cmdMove exEnv b!"deps" b!"runtime_deps" [b!"a"] exSt).file = true ∧
    attr b!"runtime_deps" (cmdMove exEnv b!"deps" b!"runtime_deps" [b!"a"] exSt).st.args = .list {} {} [.string { value := b!":a" }] {} false := by
  refine ⟨rfl, rfl⟩

/-- **C64 (finding).** `move deps deps *` deletes the attribute. -/
theorem C64_move_to_itself : attr b!"deps" (cmdMove exEnv b!"deps" b!"deps" [b!"*"]
    { exSt with args := [kwd b!"deps" (.list {} {} [.string { value := b!":a" }] {} false)] }).st.args = .nil := rfl

end Verif.Props.Commands
