import Verif.Props.CommandLists
import Verif.Props.Round
import Verif.Model.Rules
/-
C66: the commands of buildozer that set, rename, remove and copy whole attributes.
-/
namespace Verif.Props.Commands
open Verif Verif.Syntax Verif.Edit Verif.Cmd Verif.Walk Verif.Props.Attr Verif.Props.ListEdit Verif.Props.Select

/-! ### Specification -/

/-- a string for the argument: without its quotes, shortened if labels are to be shortened -/
def StringFor (E : Env) (arg : Bytes) (x : Expr) : Prop :=
  ∃ s item, x = .string s ∧ ItemOf arg item ∧ s.value = if E.short then Labels.shorten item E.pkg else item

/-- the argument is a call of `glob` -/
def IsGlob (args : List Bytes) : Prop := ∃ rest, args = [b!"glob(" ++ rest]

/-- The value of an attribute `name` for the arguments of `set`: a list of numbers, a list of strings, a string, or the argument as it
is; `None` if there is no argument for an attribute that is not a list. -/
inductive ValueFor (E : Env) (name : Bytes) : List Bytes → Expr → Prop
  | numbers (args) : E.isIntList name = true → ValueFor E name args (.list {} {} (args.map fun a => .literal {} {} a) {} false)
  | strings (args l) : E.isIntList name = false → E.isList name = true → ¬ IsGlob args → Forall2 (StringFor E) args l →
      ValueFor E name args (.list {} {} l {} false)
  | none : E.isIntList name = false → E.isList name = false → ValueFor E name [] (.ident { name := b!"None" })
  | string (a args x) : E.isIntList name = false → (E.isList name = false ∨ IsGlob (a :: args)) → E.isString name = true → StringFor E a x →
      ValueFor E name (a :: args) x
  | raw (a args) : E.isIntList name = false → (E.isList name = false ∨ IsGlob (a :: args)) → E.isString name = false →
      ValueFor E name (a :: args) (.ident { name := a })

/-- an argument of the call that is an attribute other than `name` -/
def OtherAttribute (x : Expr) : Prop := ∃ k, k ≠ b!"name" ∧ Defines k x

/-- the function of a call is written as this chain of names -/
inductive Chain : Expr → List Bytes → Prop
  | name (i : IdentN) : Chain (.ident i) [i.name]
  | dot (c x p q n ns) : Chain x ns → Chain (.dot c x p q n) (ns ++ [n])

/-! ### set -/

theorem stringFor (E : Env) (a : Bytes) : StringFor E a (getStringExpr E a) := by
  obtain ⟨s, h1, h2⟩ := getStringExpr_spec E a
  exact ⟨s, _, h1, getStringValue_item a, h2⟩

theorem hasPrefix_iff (s p : Bytes) : hasPrefix s p = true ↔ ∃ r, s = p ++ r := by
  unfold hasPrefix
  rw [List.isPrefixOf_iff_prefix]
  exact ⟨fun ⟨r, h⟩ => ⟨r, h.symm⟩, fun ⟨r, h⟩ => ⟨r, h.symm⟩⟩

theorem attrValue_for (E : Env) (name : Bytes) (args : List Bytes) (h : name ≠ b!"kind") : ValueFor E name args (attrValue E name args) := by
  unfold attrValue
  rw [if_neg h]
  have hglob : isGlob args = true ↔ IsGlob args := by
    unfold isGlob
    constructor
    · intro hg
      split at hg
      · obtain ⟨r, rfl⟩ := (hasPrefix_iff _ _).mp hg; exact ⟨r, rfl⟩
      · cases hg
    · rintro ⟨r, rfl⟩
      exact (hasPrefix_iff _ _).mpr ⟨r, rfl⟩
  cases hi : E.isIntList name with
  | true => rw [if_pos rfl]; exact .numbers args hi
  | false =>
    rw [if_neg (by simp)]
    by_cases hl : (E.isList name && !isGlob args) = true
    · rw [if_pos hl]
      rw [Bool.and_eq_true, Bool.not_eq_true'] at hl
      refine .strings args _ hi hl.1 (fun hg => ?_) ?_
      · rw [hglob.mpr hg] at hl; cases hl.2
      · clear hl hglob
        induction args with
        | nil => exact .nil
        | cons a l ih => exact .cons (stringFor E a) ih
    · rw [if_neg hl]
      have hor : E.isList name = false ∨ IsGlob args := by
        cases hx : E.isList name with
        | false => exact .inl rfl
        | true =>
          refine .inr (hglob.mp ?_)
          rw [hx, Bool.true_and, Bool.not_eq_true'] at hl
          simpa using hl
      cases args with
      | nil =>
        refine .none hi (hor.resolve_right ?_)
        rintro ⟨r, h⟩; cases h
      | cons a l =>
        dsimp only
        cases hs : E.isString name with
        | true => rw [if_pos rfl]; exact .string a l _ hi hor hs (stringFor E a)
        | false => rw [if_neg (by simp)]; exact .raw a l hi hor hs

/-- **C66 (set).** The attribute has the value for the arguments; nothing else changes (C65); setting it again changes nothing. -/
theorem C66_set (E : Env) (name : Bytes) (vals : List Bytes) (st : St) (hk : name ≠ b!"kind") :
    (cmdSet E name vals st).file = true ∧ (cmdSet E name vals st).err = false ∧
    ValueFor E name vals (attr name (cmdSet E name vals st).st.args) ∧
    (cmdSet E name vals (cmdSet E name vals st).st) = cmdSet E name vals st := by
  have h : ∀ st, cmdSet E name vals st = done { st with args := setAttr name (attrValue E name vals) st.args } := by
    intro st; unfold cmdSet; rw [if_neg hk]
  rw [h, h]
  refine ⟨rfl, rfl, ?_, ?_⟩
  · show ValueFor E name vals (attr name (setAttr name _ st.args))
    rw [C27_get_set]
    exact attrValue_for E name vals hk
  · show done { st with args := setAttr name _ (setAttr name _ st.args) } = _
    have hv : (attr name (setAttr name (attrValue E name vals) st.args)).isNil = false := by
      rw [C27_get_set]
      have := attrValue_for E name vals hk
      generalize attrValue E name vals = x at this
      cases this with
      | string _ _ _ _ _ _ hs => obtain ⟨s, _, rfl, _⟩ := hs; rfl
      | _ => rfl
    have := setAttr_same name (setAttr name (attrValue E name vals) st.args) hv
    rw [C27_get_set] at this
    rw [this]

/-- **C66 (set_if_absent).** -/
theorem C66_set_if_absent (E : Env) (name : Bytes) (vals : List Bytes) (st : St) (hk : name ≠ b!"kind") :
    (attr name st.args = .nil → cmdSetIfAbsent E name vals st = cmdSet E name vals st) ∧
    ((attr name st.args).isNil = false → cmdSetIfAbsent E name vals st = done st) := by
  unfold cmdSetIfAbsent cmdSet
  rw [if_neg hk, if_neg hk]
  constructor
  · intro h; rw [h]; rfl
  · intro h; rw [h]; rfl

/-! ### set kind -/

theorem chain_fold (fn : Expr) (ns : List Bytes) : ∀ (e : Expr) (ms : List Bytes), Chain e ms →
    Chain (ns.foldl (fun e m => .dot {} e {} fn.startPos m) e) (ms ++ ns) := by
  induction ns with
  | nil => intro e ms h; rw [List.append_nil]; exact h
  | cons n ns ih =>
    intro e ms h
    rw [List.foldl_cons, show ms ++ n :: ns = (ms ++ [n]) ++ ns by simp]
    exact ih _ _ (.dot _ _ _ _ _ _ h)

theorem joinWith_append (c : UInt8) (n : Bytes) : ∀ (l : List Bytes), l ≠ [] → joinWith c (l ++ [n]) = joinWith c l ++ c :: n
  | [], h => absurd rfl h
  | [a], _ => by simp [joinWith]
  | a :: b :: l, _ => by
    have := joinWith_append c n (b :: l) (by simp)
    simp only [List.cons_append, joinWith] at this ⊢
    rw [this]
    simp

theorem chain_ne {e : Expr} {ns : List Bytes} (h : Chain e ns) : ns ≠ [] := by cases h <;> simp

theorem chain_dot {e : Expr} {ns : List Bytes} (h : Chain e ns) (s : Bytes) : Edit.kindOf.kindOfDot e s = joinWith 46 ns ++ 46 :: s := by
  induction h generalizing s with
  | name i => simp [kindOf.kindOfDot, joinWith]
  | dot c x p q n ns h ih =>
    rw [kindOf.kindOfDot, ih, joinWith_append _ _ _ (chain_ne h)]
    simp

/-- the kind of a rule whose function is a chain of names -/
theorem chain_kind {e : Expr} {ns : List Bytes} (h : Chain e ns) : kindOf e = joinWith 46 ns := by
  cases h with
  | name i => simp [kindOf, joinWith]
  | dot c x p q n ns h =>
    rw [kindOf, chain_dot h, joinWith_append _ _ _ (chain_ne h)]

theorem join_split (c : UInt8) (s : Bytes) : joinWith c (splitAll c s) = s ∧ splitAll c s ≠ [] := by
  induction s with
  | nil => exact ⟨rfl, by simp [splitAll]⟩
  | cons x s ih =>
    unfold splitAll
    split
    · rename_i h
      obtain ⟨h1, h2⟩ := ih
      refine ⟨?_, by simp⟩
      cases hs : splitAll c s with
      | nil => exact absurd hs h2
      | cons a l => rw [hs] at h1; simp only [joinWith]; rw [h1, h]; simp
    · obtain ⟨h1, h2⟩ := ih
      cases hs : splitAll c s with
      | nil => exact absurd hs h2
      | cons a l =>
        refine ⟨?_, by simp⟩
        rw [hs] at h1
        cases l with
        | nil => simp only [joinWith] at h1 ⊢; rw [h1]
        | cons b l => simp only [joinWith] at h1 ⊢; rw [← h1]; simp

/-- **C66 (set kind).** The function is written as the parts of the new kind joined by dots, the kind of the rule is the argument, and
the arguments of the call do not change. -/
theorem C66_set_kind (E : Env) (kind : Bytes) (more : List Bytes) (st : St) :
    kindOf (cmdSet E b!"kind" (kind :: more) st).st.fn = kind ∧
    (∃ ns, Chain (cmdSet E b!"kind" (kind :: more) st).st.fn ns ∧ joinWith 46 ns = kind) ∧
    (cmdSet E b!"kind" (kind :: more) st).st.args = st.args ∧ (cmdSet E b!"kind" (kind :: more) st).st.comments = st.comments := by
  have h : cmdSet E b!"kind" (kind :: more) st = done { st with fn := setKind kind st.fn } := rfl
  rw [h]
  have hc : Chain (setKind kind st.fn) (splitAll 46 kind) := by
    unfold setKind
    cases hs : splitAll 46 kind with
    | nil => exact absurd hs (join_split 46 kind).2
    | cons n ns => exact chain_fold st.fn ns _ [n] (.name _)
  exact ⟨(chain_kind hc).trans (join_split 46 kind).1, ⟨_, hc, (join_split 46 kind).1⟩, rfl, rfl⟩

/-- **C66 (set kind).** `set_if_absent kind` is an error and changes nothing. -/
theorem C66_set_kind_if_absent (E : Env) (vals : List Bytes) (st : St) : cmdSetIfAbsent E b!"kind" vals st = fails st := rfl

/-! ### rename -/

/-- **C66 (rename).** The command fails, and changes nothing, exactly if there is no old attribute or there is a new one; otherwise the
value of the old attribute is the value of the new one. -/
theorem C66_rename (old new : Bytes) (st : St) :
    (((∀ x ∈ st.args, ¬ Defines old x) ∨ (attr new st.args).isNil = false) → cmdRename old new st = fails st) ∧
    ((attr old st.args).isNil = false → (∀ x ∈ st.args, ¬ Defines new x) →
      (cmdRename old new st).err = false ∧ (cmdRename old new st).file = true ∧
      attr new (cmdRename old new st).st.args = attr old st.args ∧
      (Once old st.args → attr old (cmdRename old new st).st.args = .nil)) := by
  constructor
  · intro h
    have : renameAttribute old new st.args = none := by
      rcases h with h | h
      · exact (C27_rename st.args old new).2.1 h
      · exact (C27_rename st.args old new).1 h
    unfold cmdRename
    rw [this]
  · intro h hnew
    obtain ⟨pre, d, post, hf⟩ := first_of_notNil h
    have hnil : (attr new st.args).isNil = true := by rw [(C27_get st.args new).2 hnew]; rfl
    have hr := (C27_rename st.args old new).2.2 pre d post hnil hf
    have hcmd : cmdRename old new st = done { st with args := pre ++ withName new d :: post } := by
      unfold cmdRename; rw [hr]
    rw [hcmd]
    refine ⟨rfl, rfl, (C27_rename_value st.args _ old new hr hnew).1, fun h1 => ?_⟩
    refine (C27_get _ old).2 ?_
    intro x hx hdx
    have hx' : x ∈ pre ++ withName new d :: post := hx
    rw [List.mem_append, List.mem_cons] at hx'
    rcases hx' with hx' | rfl | hx'
    · exact hf.2.2 x hx' hdx
    · obtain ⟨c, i, p, o, lb, r, hd, hi⟩ := hf.2.1
      rw [hd] at hdx
      obtain ⟨_, _, _, _, _, _, he, hk⟩ := hdx
      cases he
      have : new = old := hk
      exact hnew d (by rw [hf.1]; simp) (this ▸ hf.2.1)
    · exact once_post hf h1 x hx' hdx

/-! ### remove -/

/-- **C66 (remove an attribute).** Its first definition is removed, and nothing else; the file counts as changed exactly if there was one
with a value. -/
theorem C66_remove (E : Env) (name : Bytes) (st : St) (hstar : name ≠ b!"*") :
    ((∀ x ∈ st.args, ¬ Defines name x) → cmdRemove E name [] st = nothing st) ∧
    (∀ pre d post, FirstDef st.args name pre d post → (cmdRemove E name [] st).st = { st with args := pre ++ post } ∧
      ((cmdRemove E name [] st).file = true ↔ (valueOf d).isNil = false) ∧
      (Once name st.args → attr name (cmdRemove E name [] st).st.args = .nil)) := by
  have hcmd : cmdRemove E name [] st =
      if (delAttr name st.args).2.isNil then nothing { st with args := (delAttr name st.args).1 } else done { st with args := (delAttr name st.args).1 } := by
    unfold cmdRemove; rw [if_pos rfl, if_neg hstar]
  rw [hcmd]
  constructor
  · intro h; rw [(C27_delete st.args name).2 h]; rfl
  · intro pre d post hf
    have hd := (C27_delete st.args name).1 pre d post hf
    have h1 : (if (delAttr name st.args).2.isNil then nothing { st with args := (delAttr name st.args).1 } else done { st with args := (delAttr name st.args).1 }).st
        = { st with args := pre ++ post } := by
      rw [hd]
      split <;> rfl
    refine ⟨h1, ?_, fun ho => ?_⟩
    · rw [hd]
      cases h : (valueOf d).isNil <;> simp [done, nothing]
    · rw [h1]
      have := (C27_get_delete st.args name).1 pre d post hf (once_post hf ho)
      rw [hd] at this
      exact this

open Classical in
/-- what `remove *` keeps -/
noncomputable def notAttributes (args : List Expr) : List Expr := args.filter fun x => decide (¬ OtherAttribute x)

open Classical in
theorem fold_removeKey : ∀ (pre args : List Expr) (b : Bool), (∀ x ∈ pre, ¬ OtherAttribute x) →
    ((attrKeys args).foldl removeKey (pre ++ args, b)).1 = pre ++ notAttributes args
  | pre, [], b, _ => by simp [attrKeys, notAttributes]
  | pre, x :: args, b, hpre => by
    by_cases hd : ∃ k, Defines k x
    · obtain ⟨k, hk⟩ := hd
      have hkeys : attrKeys (x :: args) = k :: attrKeys args := by
        obtain ⟨c, i, p, o, lb, r, rfl, rfl⟩ := hk; rfl
      rw [hkeys, List.foldl_cons]
      by_cases hn : k = b!"name"
      · have : removeKey (pre ++ x :: args, b) k = (pre ++ [x] ++ args, b) := by
          unfold removeKey; rw [if_pos hn]; simp
        have hx : ¬ OtherAttribute x := by
          rintro ⟨k', h1, h2⟩
          obtain ⟨_, _, _, _, _, _, rfl, e1⟩ := hk
          obtain ⟨_, _, _, _, _, _, e2, e3⟩ := h2
          cases e2
          exact h1 (e3.symm.trans (e1.trans hn))
        rw [this, fold_removeKey (pre ++ [x]) args b (by
          intro y hy
          rcases List.mem_append.mp hy with hy | hy
          · exact hpre y hy
          · rw [List.mem_singleton.mp hy]; exact hx)]
        simp [notAttributes, hx]
      · have hx : OtherAttribute x := ⟨k, hn, hk⟩
        have hf : FirstDef (pre ++ x :: args) k pre x args := ⟨rfl, hk, fun y hy hdy => hpre y hy ⟨k, hn, hdy⟩⟩
        have hdel := (C27_delete (pre ++ x :: args) k).1 pre x args hf
        have : (removeKey (pre ++ x :: args, b) k).1 = pre ++ args := by
          unfold removeKey; rw [if_neg hn]; rw [hdel]
        rw [show removeKey (pre ++ x :: args, b) k = (pre ++ args, (removeKey (pre ++ x :: args, b) k).2) from by rw [← this],
          fold_removeKey pre args _ hpre]
        simp [notAttributes, hx]
    · have hkeys : attrKeys (x :: args) = attrKeys args := by
        have h0 : attrKeys [x] = [] := by
          cases h : attrKeys [x] with
          | nil => rfl
          | cons k l =>
            obtain ⟨y, hy, hdy⟩ := (C27_keys [x] k .nil).1.mp (by rw [h]; simp)
            rw [List.mem_singleton.mp hy] at hdy
            exact absurd ⟨k, hdy⟩ hd
        have := keys_append [x] args
        rw [h0] at this
        exact this
      have hx : ¬ OtherAttribute x := fun ⟨k, _, h⟩ => hd ⟨k, h⟩
      rw [hkeys, show pre ++ x :: args = pre ++ [x] ++ args by simp, fold_removeKey (pre ++ [x]) args b (by
          intro y hy
          rcases List.mem_append.mp hy with hy | hy
          · exact hpre y hy
          · rw [List.mem_singleton.mp hy]; exact hx)]
      simp [notAttributes, hx]

open Classical in
theorem fold_removeKey_changed : ∀ (pre args : List Expr) (b : Bool), (∀ x ∈ pre, ¬ OtherAttribute x) →
    (((attrKeys args).foldl removeKey (pre ++ args, b)).2 = true ↔ b = true ∨ ∃ x ∈ args, OtherAttribute x ∧ (valueOf x).isNil = false)
  | pre, [], b, _ => by simp [attrKeys]
  | pre, x :: args, b, hpre => by
    by_cases hd : ∃ k, Defines k x
    · obtain ⟨k, hk⟩ := hd
      have hkeys : attrKeys (x :: args) = k :: attrKeys args := by
        obtain ⟨c, i, p, o, lb, r, rfl, rfl⟩ := hk; rfl
      rw [hkeys, List.foldl_cons]
      by_cases hn : k = b!"name"
      · have : removeKey (pre ++ x :: args, b) k = (pre ++ [x] ++ args, b) := by
          unfold removeKey; rw [if_pos hn]; simp
        have hx : ¬ OtherAttribute x := by
          rintro ⟨k', h1, h2⟩
          obtain ⟨_, _, _, _, _, _, rfl, e1⟩ := hk
          obtain ⟨_, _, _, _, _, _, e2, e3⟩ := h2
          cases e2
          exact h1 (e3.symm.trans (e1.trans hn))
        rw [this, fold_removeKey_changed (pre ++ [x]) args b (by
          intro y hy
          rcases List.mem_append.mp hy with hy | hy
          · exact hpre y hy
          · rw [List.mem_singleton.mp hy]; exact hx)]
        simp [hx]
      · have hx : OtherAttribute x := ⟨k, hn, hk⟩
        have hf : FirstDef (pre ++ x :: args) k pre x args := ⟨rfl, hk, fun y hy hdy => hpre y hy ⟨k, hn, hdy⟩⟩
        have hdel := (C27_delete (pre ++ x :: args) k).1 pre x args hf
        have : removeKey (pre ++ x :: args, b) k = (pre ++ args, b || !(valueOf x).isNil) := by
          unfold removeKey; rw [if_neg hn]; rw [hdel]
        rw [this, fold_removeKey_changed pre args _ hpre]
        simp [hx, or_assoc]
    · have hkeys : attrKeys (x :: args) = attrKeys args := by
        have h0 : attrKeys [x] = [] := by
          cases h : attrKeys [x] with
          | nil => rfl
          | cons k l =>
            obtain ⟨y, hy, hdy⟩ := (C27_keys [x] k .nil).1.mp (by rw [h]; simp)
            rw [List.mem_singleton.mp hy] at hdy
            exact absurd ⟨k, hdy⟩ hd
        have := keys_append [x] args
        rw [h0] at this
        exact this
      have hx : ¬ OtherAttribute x := fun ⟨k, _, h⟩ => hd ⟨k, h⟩
      rw [hkeys, show pre ++ x :: args = pre ++ [x] ++ args by simp, fold_removeKey_changed (pre ++ [x]) args b (by
          intro y hy
          rcases List.mem_append.mp hy with hy | hy
          · exact hpre y hy
          · rw [List.mem_singleton.mp hy]; exact hx)]
      simp [hx]

/-- **C66 (remove all, report).** `remove *` reports a change exactly if there was an attribute other than `name` with a value. -/
theorem C66_remove_all_changed (E : Env) (st : St) :
    (cmdRemove E b!"*" [] st).file = true ↔ ∃ x ∈ st.args, OtherAttribute x ∧ (valueOf x).isNil = false := by
  have h := fold_removeKey_changed [] st.args false (by intro x hx; cases hx)
  rw [List.nil_append] at h
  have hcmd : (cmdRemove E b!"*" [] st).file = ((attrKeys st.args).foldl removeKey (st.args, false)).2 := by
    unfold cmdRemove
    rw [if_pos rfl, if_pos rfl]
    dsimp only
    split
    · rename_i h; rw [h]; rfl
    · rename_i h; rw [Bool.eq_false_iff.mpr h]; rfl
  rw [hcmd, h]
  simp

/-- **C66 (remove all).** `remove *` removes exactly the attributes other than `name` (every definition of them). -/
theorem C66_remove_all (E : Env) (st : St) : (cmdRemove E b!"*" [] st).st = { st with args := notAttributes st.args } := by
  have h := fold_removeKey [] st.args false (by intro x hx; cases hx)
  rw [List.nil_append] at h
  have hcmd : (cmdRemove E b!"*" [] st).st = { st with args := ((attrKeys st.args).foldl removeKey (st.args, false)).1 } := by
    unfold cmdRemove
    rw [if_pos rfl, if_pos rfl]
    dsimp only
    split <;> rfl
  rw [hcmd, h, List.nil_append]

/-- **C66 (remove_if_equal).** A string attribute is removed exactly if it is the same label as the argument, a name exactly if it is the
argument; anything else is left alone. -/
theorem C66_remove_if_equal (E : Env) (name val : Bytes) (st : St) :
    (∀ s, attr name st.args = .string s → cmdRemoveIfEqual E name val st =
      if Labels.equal s.value val E.pkg = true then done { st with args := (delAttr name st.args).1 } else nothing st) ∧
    (∀ i, attr name st.args = .ident i → cmdRemoveIfEqual E name val st =
      if i.name = val then done { st with args := (delAttr name st.args).1 } else nothing st) ∧
    ((∀ s, attr name st.args ≠ .string s) → (∀ i, attr name st.args ≠ .ident i) → cmdRemoveIfEqual E name val st = nothing st) := by
  refine ⟨fun s h => ?_, fun i h => ?_, fun h1 h2 => ?_⟩
  · unfold cmdRemoveIfEqual; rw [h]
  · unfold cmdRemoveIfEqual; rw [h]
  · unfold cmdRemoveIfEqual
    generalize attr name st.args = e at h1 h2
    cases e <;> first | rfl | (rename_i s; exact absurd rfl (h1 s)) | (rename_i s; exact absurd rfl (h2 s))

/-! ### copy -/

/-- **C66 (copy).** For every value of a form the parser can produce, the attribute afterwards has the value of the other rule (up to
positions, comments, layout, the spelling of strings and added parentheses). -/
theorem C66_copy (name : Bytes) (e : Expr) (out : Bytes) (st : St) (hok : Round.OkExpr e) (htt : Round.tupleTight e = true)
    (h : Print.formatString e = some out) :
    ∃ fuel e', (cmdCopy fuel name (some e) st) = done { st with args := setAttr name e' st.args } ∧
      attr name (cmdCopy fuel name (some e) st).st.args = e' ∧ Round.Same e e' := by
  obtain ⟨fuel, f', e', h1, h2, h3⟩ := Round.reads_string .build hok htt h
  have hn : e.isNil = false := (Round.OkStmt.expr e hok).isNil
  have hc : cmdCopy fuel name (some e) st = done { st with args := setAttr name e' st.args } := by
    unfold cmdCopy copyAttr
    dsimp only
    rw [if_neg (by rw [hn]; simp), h]
    dsimp only
    rw [h1]
    dsimp only
    rw [h2]
    rfl
  refine ⟨fuel, e', hc, ?_, h3⟩
  rw [hc]
  exact C27_get_set ..

/-- **C66 (copy_no_overwrite).** -/
theorem C66_copy_no_overwrite (fuel : Nat) (name : Bytes) (src : Option Expr) (st : St) :
    ((attr name st.args).isNil = false → cmdCopyNoOverwrite fuel name src st = done st) ∧
    (attr name st.args = .nil → cmdCopyNoOverwrite fuel name src st = cmdCopy fuel name src st) := by
  unfold cmdCopyNoOverwrite cmdCopy
  constructor
  · intro h; rw [h]; rfl
  · intro h; rw [h]; rfl

/-- **C66 (copy).** Without the other rule or without its attribute the command fails and changes nothing. -/
theorem C66_copy_missing (fuel : Nat) (name : Bytes) (st : St) :
    cmdCopy fuel name none st = fails st ∧ cmdCopy fuel name (some .nil) st = fails st := ⟨rfl, rfl⟩

/-! ### Examples -/

example : ¬ ∃ k, Defines k (Expr.string { value := b!"x" }) := by rintro ⟨k, _, _, _, _, _, _, h, _⟩; cases h

/-- the hypotheses of `C66_copy` can be met: the value `["a"] + b` -/
example : Round.OkExpr (.binary {} (.list {} {} [.string { value := b!"a" }] {} false) {} b!"+" false (.ident { name := b!"b" })) ∧
    Print.formatString (.binary {} (.list {} {} [.string { value := b!"a" }] {} false) {} b!"+" false (.ident { name := b!"b" })) = some b!"[\"a\"] + b" := by
  refine ⟨.one _ ?_, by decide +kernel⟩
  exact Round.Ok.binary _ _ _ _ _ (by decide) (Round.Ok.list _ _ _ _ rfl (by
    intro a ha; rw [List.mem_singleton.mp ha]; exact Round.Ok.string _ rfl (.inl rfl))) rfl (Round.Ok.ident { name := b!"b" } rfl Props.Round.name_b) rfl

end Verif.Props.Commands
