import Verif.Model.Commands
import Verif.Props.Attr
/-
C65: a buildozer command changes only the attributes it names.
-/
namespace Verif.Props.Commands
open Verif Verif.Syntax Verif.Edit Verif.Cmd Verif.Props.Attr

/-! ### Specification -/

/-- the argument is a definition `k = …` with `k` in `K` -/
def definesAny (K : List Bytes) : Expr → Bool
  | .assign _ (.ident i) _ _ _ _ => K.contains i.name
  | _ => false

/-- the arguments other than definitions of the attributes in `K`, in order -/
def others (K : List Bytes) (args : List Expr) : List Expr := args.filter fun x => !definesAny K x

/-- The commands on one rule, with their arguments (buildozer.go:913-946; `src` is the value found in the other rule, `re` the
compiled regular expression). -/
inductive Command where
  | add (name : Bytes) (vals : List Bytes)
  | move (old new : Bytes) (vals : List Bytes)
  | remove (pattern : Bytes) (vals : List Bytes)
  | removeIfEqual (name val : Bytes)
  | rename (old new : Bytes)
  | replace (pattern old new : Bytes)
  | substitute (pattern : Bytes) (re : Option Regexp)
  | set (name : Bytes) (vals : List Bytes)
  | setIfAbsent (name : Bytes) (vals : List Bytes)
  | setSelect (name : Bytes) (kvs : List Bytes)
  | copy (name : Bytes) (src : Option Expr)
  | copyNoOverwrite (name : Bytes) (src : Option Expr)
  | dictAdd (name : Bytes) (kvs : List Bytes)
  | dictSet (name : Bytes) (kvs : List Bytes)
  | dictRemove (name : Bytes) (keys : List Bytes)
  | dictReplaceIfEqual (name key old new : Bytes)
  | dictListAdd (name key : Bytes) (vals : List Bytes)

/-- running a command -/
def Command.run (fuel : Nat) (E : Env) : Command → St → Res
  | .add n vs => cmdAdd E n vs
  | .move o n vs => cmdMove E o n vs
  | .remove p vs => cmdRemove E p vs
  | .removeIfEqual n v => cmdRemoveIfEqual E n v
  | .rename o n => cmdRename o n
  | .replace p o n => cmdReplace E p o n
  | .substitute p re => cmdSubstitute E p re
  | .set n vs => cmdSet E n vs
  | .setIfAbsent n vs => cmdSetIfAbsent E n vs
  | .setSelect n vs => cmdSetSelect E n vs
  | .copy n src => cmdCopy fuel n src
  | .copyNoOverwrite n src => cmdCopyNoOverwrite fuel n src
  | .dictAdd n vs => cmdDictPut E false n vs
  | .dictSet n vs => cmdDictPut E true n vs
  | .dictRemove n ks => cmdDictRemove n ks
  | .dictReplaceIfEqual n k o v => cmdDictReplaceIfEqual E n k o v
  | .dictListAdd n k vs => cmdDictListAdd E n k vs

/-- the attributes a command names; `*` names all of them -/
def Command.names : Command → List Expr → List Bytes
  | .add n _, _ | .removeIfEqual n _, _ | .set n _, _ | .setIfAbsent n _, _ | .setSelect n _, _ | .copy n _, _
  | .copyNoOverwrite n _, _ | .dictAdd n _, _ | .dictSet n _, _ | .dictRemove n _, _ | .dictReplaceIfEqual n .., _
  | .dictListAdd n .., _ => [n]
  | .move o n _, _ | .rename o n, _ => [o, n]
  | .remove p _, args | .replace p .., args | .substitute p _, args => if p = b!"*" then attrKeys args else [p]

/-- the commands that may edit variables -/
def Command.editsVariables : Command → Prop
  | .add .. | .move .. => True
  | _ => False

/-! ### Proofs -/

theorem others_cons (K : List Bytes) (x : Expr) (l : List Expr) :
    others K (x :: l) = if definesAny K x then others K l else x :: others K l := by
  cases h : definesAny K x <;> simp [others, h]

theorem others_append (K : List Bytes) (a b : List Expr) : others K (a ++ b) = others K a ++ others K b := by simp [others]

theorem defines_any {K : List Bytes} {key : Bytes} (hk : key ∈ K) {x : Expr} (h : Defines key x) : definesAny K x = true := by
  obtain ⟨c, i, p, o, lb, r, rfl, rfl⟩ := h
  simpa [definesAny] using hk

theorem others_set {K : List Bytes} {key : Bytes} (hk : key ∈ K) (v : Expr) (l : List Expr) :
    others K (setAttr key v l) = others K l := by
  rcases exists_first key l with h | ⟨pre, d, post, h⟩
  · rw [(C27_set l key v).2 h, others_append, others_cons]
    rw [if_pos (defines_any hk ⟨_, _, _, _, _, _, rfl, rfl⟩)]
    simp [others]
  · rw [(C27_set l key v).1 _ _ _ h, h.1, others_append, others_append, others_cons, others_cons,
      if_pos (defines_any hk h.2.1), if_pos (defines_any hk ((defines_withValue v h.2.1).mpr h.2.1))]

theorem others_del {K : List Bytes} {key : Bytes} (hk : key ∈ K) (l : List Expr) : others K (delAttr key l).1 = others K l := by
  rcases exists_first key l with h | ⟨pre, d, post, h⟩
  · rw [(C27_delete l key).2 h]
  · rw [(C27_delete l key).1 _ _ _ h, h.1, others_append, others_append, others_cons, if_pos (defines_any hk h.2.1)]

theorem others_rename {K : List Bytes} {old new : Bytes} (ho : old ∈ K) (hn : new ∈ K) (l l' : List Expr)
    (h : renameAttribute old new l = some l') : others K l' = others K l := by
  rcases exists_first old l with hx | ⟨pre, d, post, hd⟩
  · rw [(C27_rename l old new).2.1 hx] at h; cases h
  · cases hi : (attr new l).isNil with
    | false => rw [(C27_rename l old new).1 hi] at h; cases h
    | true =>
      rw [(C27_rename l old new).2.2 pre d post hi hd] at h
      cases h
      rw [hd.1, others_append, others_append, others_cons, others_cons, if_pos (defines_any ho hd.2.1)]
      obtain ⟨c, i, p, o, lb, r, rfl, rfl⟩ := hd.2.1
      rw [if_pos (defines_any hn (x := withName new _) ⟨c, { i with name := new }, p, o, lb, r, rfl, rfl⟩)]

theorem others_resolve {K : List Bytes} {key : Bytes} (hk : key ∈ K) (dwc : Bool) (pkg : Bytes) (l : List Expr) :
    others K (resolveAttr dwc key pkg l) = others K l := by
  unfold resolveAttr
  split
  · rfl
  · exact others_set hk _ _

theorem others_listDelete {K : List Bytes} {key : Bytes} (hk : key ∈ K) (dwc : Bool) (item pkg : Bytes) (l : List Expr) :
    others K (listAttributeDelete dwc key item pkg l).1 = others K l := by
  have hset : ∀ e, others K (if (attr key l).isNil then l else setAttr key e l) = others K l := by
    intro e; split
    · rfl
    · exact others_set hk _ _
  unfold listAttributeDelete
  dsimp only
  split
  · rw [others_del hk, hset]
  · exact hset _

theorem others_fold {α : Type} {K : List Bytes} (f : List Expr → α → List Expr) (xs : List α)
    (h : ∀ l, ∀ x ∈ xs, others K (f l x) = others K l) (l : List Expr) : others K (xs.foldl f l) = others K l := by
  induction xs generalizing l with
  | nil => rfl
  | cons x xs ih =>
    rw [List.foldl_cons, ih (fun l y hy => h l y (List.mem_cons_of_mem _ hy)), h l x (List.mem_cons_self ..)]

/-- What a step keeps: the comments of the call, its function, the other arguments, and the names of the variables. -/
structure Keeps (K : List Bytes) (a b : St) : Prop where
  comments : b.comments = a.comments
  fn : b.fn = a.fn
  args : others K b.args = others K a.args
  vars : b.vars.map Prod.fst = a.vars.map Prod.fst

theorem Keeps.refl (K : List Bytes) (a : St) : Keeps K a a := ⟨rfl, rfl, rfl, rfl⟩

theorem Keeps.trans {K : List Bytes} {a b c : St} (h1 : Keeps K a b) (h2 : Keeps K b c) : Keeps K a c :=
  ⟨h2.1.trans h1.1, h2.2.trans h1.2, h2.3.trans h1.3, h2.4.trans h1.4⟩

theorem assignVar_names (n : Bytes) (v : Expr) (l : List (Bytes × Expr)) : (assignVar n v l).map Prod.fst = l.map Prod.fst := by
  induction l with
  | nil => rfl
  | cons q l ih =>
    have : assignVar n v (q :: l) = (if q.1 = n then (q.1, v) else q) :: assignVar n v l := rfl
    rw [this, List.map_cons, List.map_cons, ih]
    split <;> rfl

theorem addToAttr_keeps {K : List Bytes} {name : Bytes} (hk : name ∈ K) (E : Env) (item : Expr) (st : St) :
    Keeps K st (addToAttr E name item st) := by
  unfold addToAttr
  split
  · exact ⟨rfl, rfl, rfl, assignVar_names ..⟩
  · exact ⟨rfl, rfl, others_set hk _ _, rfl⟩

theorem keeps_fold {α : Type} {K : List Bytes} (f : St → α → St) (h : ∀ st x, Keeps K st (f st x)) (xs : List α) (st : St) :
    Keeps K st (xs.foldl f st) := by
  induction xs generalizing st with
  | nil => exact .refl ..
  | cons x xs ih => exact (h st x).trans (ih _)

theorem keeps_args {K : List Bytes} {st : St} {args : List Expr} (h : others K args = others K st.args) : Keeps K st { st with args } :=
  ⟨rfl, rfl, h, rfl⟩

theorem keeps_pair {α : Type} {K : List Bytes} (f : St × Bool → α → St × Bool) (h : ∀ s x, Keeps K s.1 (f s x).1) (xs : List α) (s : St × Bool) :
    Keeps K s.1 (xs.foldl f s).1 := by
  induction xs generalizing s with
  | nil => exact .refl ..
  | cons x xs ih => exact (h s x).trans (ih _)

theorem moveOne_keeps (E : Env) (old new : Bytes) (s : St × Bool) (v : Bytes) : Keeps [old, new] s.1 (moveOne E old new s v).1 := by
  have h1 : Keeps [old, new] s.1 { s.1 with args := (listAttributeDelete E.dwc old v E.pkg s.1.args).1 } :=
    keeps_args (others_listDelete (by simp) ..)
  unfold moveOne
  dsimp only
  split
  · exact h1.trans (addToAttr_keeps (by simp) ..)
  · exact h1

theorem moveAll_keeps (E : Env) (old new : Bytes) (st : St) : Keeps [old, new] st (moveAll E old new st).1 := by
  unfold moveAll
  split
  · exact .refl ..
  · split
    · refine keeps_args ?_
      cases h : renameAttribute old new st.args with
      | none => rfl
      | some l => exact others_rename (by simp) (by simp) _ _ h
    · split
      · rename_i l _ _ _
        have h1 := keeps_fold (K := [old, new]) (fun st x => addToAttr E new x st) (fun st x => addToAttr_keeps (by simp) ..) l st
        exact h1.trans (keeps_args (others_del (by simp) _))
      · exact .refl ..

theorem removeKey_others (K : List Bytes) : ∀ (ks : List Bytes) (s : List Expr × Bool), (∀ k ∈ ks, k ∈ K) →
    others K (ks.foldl removeKey s).1 = others K s.1
  | [], _, _ => rfl
  | k :: ks, s, h => by
    rw [List.foldl_cons, removeKey_others K ks _ (fun k hk => h k (List.mem_cons_of_mem _ hk))]
    unfold removeKey
    split
    · rfl
    · exact others_del (h k (List.mem_cons_self ..)) _

theorem removeValues_others {K : List Bytes} {key : Bytes} (hk : key ∈ K) (E : Env) (vals : List Bytes) (args : List Expr) :
    others K (removeValues E vals args key) = others K args := by
  have h1 : others K (resolveAttr E.dwc key E.pkg (vals.foldl (fun args v => (listAttributeDelete E.dwc key v E.pkg args).1) args)) = others K args := by
    rw [others_resolve hk, others_fold _ _ (fun l x _ => others_listDelete hk ..)]
  unfold removeValues
  dsimp only
  split
  · rw [others_del hk, h1]
  · exact h1

theorem replaceKey_others {K : List Bytes} {key : Bytes} (hk : key ∈ K) (E : Env) (o n : Bytes) (args : List Expr) :
    others K (replaceKey E o n args key) = others K args := by
  unfold replaceKey
  split
  · rfl
  · split
    · exact others_set hk _ _
    · rfl
  · exact others_set hk _ _

theorem substituteKey_others {K : List Bytes} {key : Bytes} (hk : key ∈ K) (E : Env) (re : Regexp) (args : List Expr) :
    others K (substituteKey E re args key) = others K args := by
  unfold substituteKey
  split
  · rfl
  · split
    · exact others_set hk _ _
    · rfl
  · exact others_set hk _ _

theorem copyAttr_keeps (fuel : Nat) (name : Bytes) (src : Option Expr) (st : St) : Keeps [name] st (copyAttr fuel name src st).st := by
  unfold copyAttr fails done
  split
  · exact .refl ..
  · split
    · exact .refl ..
    · split
      · exact .refl ..
      · split
        · exact keeps_args (others_set (by simp) _ _)
        · exact .refl ..

/-- **C65** A command leaves all arguments of the rule that are not definitions of attributes it names unchanged and in order, and
the comments of the rule; only `set kind` changes the kind; only `add` and `move` change variables. -/
theorem C65_frame (fuel : Nat) (E : Env) (c : Command) (st : St) :
    others (c.names st.args) (c.run fuel E st).st.args = others (c.names st.args) st.args ∧
    (c.run fuel E st).st.comments = st.comments ∧
    ((∀ vs, c ≠ .set b!"kind" vs) → (c.run fuel E st).st.fn = st.fn) ∧
    (c.run fuel E st).st.vars.map Prod.fst = st.vars.map Prod.fst ∧
    (¬ c.editsVariables → (c.run fuel E st).st.vars = st.vars) := by
  have fin : ∀ (c : Command) (r : St), r.vars = st.vars → Keeps (c.names st.args) st r →
      others (c.names st.args) r.args = others (c.names st.args) st.args ∧ r.comments = st.comments ∧ ((∀ vs, c ≠ .set b!"kind" vs) → r.fn = st.fn) ∧
        r.vars.map Prod.fst = st.vars.map Prod.fst ∧ (¬ c.editsVariables → r.vars = st.vars) :=
    fun c r v h => ⟨h.3, h.1, fun _ => h.2, h.4, fun _ => v⟩
  cases c with
  | add n vs =>
    have h : Keeps [n] st (cmdAdd E n vs st).st := by
      unfold cmdAdd done
      exact (keeps_fold _ (fun st x => addToAttr_keeps (by simp) ..) vs st).trans (keeps_args (others_resolve (by simp) ..))
    exact ⟨h.3, h.1, fun _ => h.2, h.4, fun hc => absurd trivial hc⟩
  | move o n vs =>
    have h : Keeps [o, n] st (cmdMove E o n vs st).st := by
      unfold cmdMove done fails nothing
      split
      · dsimp only; split <;> exact moveAll_keeps ..
      · dsimp only; split <;> exact keeps_pair _ (moveOne_keeps E o n) vs (st, false)
    exact ⟨h.3, h.1, fun _ => h.2, h.4, fun hc => absurd trivial hc⟩
  | remove p vs =>
    apply fin (.remove p vs)
    · simp only [Command.run]; unfold cmdRemove done nothing; dsimp only; repeat' split
      all_goals rfl
    · have hk : ∀ k ∈ keysFor p st.args, k ∈ (if p = b!"*" then attrKeys st.args else [p]) := fun k h => h
      simp only [Command.run]
      unfold cmdRemove done nothing
      split
      · split
        · rename_i hp
          have h1 := removeKey_others (attrKeys st.args) (attrKeys st.args) (st.args, false) (fun _ h => h)
          dsimp only; split <;> (refine keeps_args ?_; simp only [Command.names, hp, if_true]; exact h1)
        · rename_i hp
          dsimp only; split <;> (refine keeps_args ?_; simp only [Command.names, hp, if_false]; exact others_del (by simp) _)
      · have h1 : others (if p = b!"*" then attrKeys st.args else [p]) ((keysFor p st.args).foldl (removeValues E vs) st.args)
            = others (if p = b!"*" then attrKeys st.args else [p]) st.args :=
          others_fold _ _ (fun l x hx => removeValues_others (hk x hx) ..) _
        dsimp only; split <;> exact keeps_args h1
  | removeIfEqual n v =>
    have h : Keeps [n] st { st with args := (delAttr n st.args).1 } := keeps_args (others_del (by simp) _)
    apply fin (.removeIfEqual n v)
    · simp only [Command.run]; unfold cmdRemoveIfEqual done nothing; repeat' split
      all_goals rfl
    · simp only [Command.run]; unfold cmdRemoveIfEqual done nothing; repeat' split
      all_goals first | exact h | exact .refl ..
  | rename o n =>
    apply fin (.rename o n)
    · simp only [Command.run]; unfold cmdRename done fails; split <;> rfl
    · simp only [Command.run]; unfold cmdRename done fails; split
      · rename_i h; exact keeps_args (others_rename (by simp [Command.names]) (by simp [Command.names]) _ _ h)
      · exact .refl ..
  | replace p o n =>
    apply fin (.replace p o n)
    · rfl
    · exact keeps_args (others_fold _ _ (fun l x hx => replaceKey_others (K := (Command.replace p o n).names st.args) hx ..) _)
  | substitute p re =>
    apply fin (.substitute p re)
    · cases re <;> rfl
    · cases re with
      | none => exact .refl ..
      | some re => exact keeps_args (others_fold _ _ (fun l x hx => substituteKey_others (K := (Command.substitute p (some re)).names st.args) hx ..) _)
  | set n vs =>
    simp only [Command.run]
    unfold cmdSet done
    split
    · rename_i hn
      subst hn
      cases vs with
      | nil => exact fin (.set _ []) st rfl (.refl ..)
      | cons v vs => exact ⟨rfl, rfl, fun h => absurd rfl (h _), rfl, fun _ => rfl⟩
    · exact fin (.set n vs) _ rfl (keeps_args (others_set (by simp [Command.names]) _ _))
  | setIfAbsent n vs =>
    simp only [Command.run]
    unfold cmdSetIfAbsent done fails
    split
    · exact fin (.setIfAbsent n vs) st rfl (.refl ..)
    · split
      · exact fin (.setIfAbsent n vs) _ rfl (keeps_args (others_set (by simp [Command.names]) _ _))
      · exact fin (.setIfAbsent n vs) st rfl (.refl ..)
  | setSelect n vs =>
    simp only [Command.run]
    unfold cmdSetSelect done fails
    split
    · exact fin (.setSelect n vs) st rfl (.refl ..)
    · exact fin (.setSelect n vs) _ rfl (keeps_args (others_set (by simp [Command.names]) _ _))
  | copy n src =>
    simp only [Command.run]
    unfold cmdCopy
    refine fin (.copy n src) _ ?_ (copyAttr_keeps ..)
    unfold copyAttr fails done; repeat' split
    all_goals rfl
  | copyNoOverwrite n src =>
    simp only [Command.run]
    unfold cmdCopyNoOverwrite
    split
    · refine fin (.copyNoOverwrite n src) _ ?_ (copyAttr_keeps ..)
      unfold copyAttr fails done; repeat' split
      all_goals rfl
    · exact fin (.copyNoOverwrite n src) st rfl (.refl ..)
  | dictAdd n vs =>
    simp only [Command.run]
    unfold cmdDictPut fails done
    dsimp only
    repeat' split
    · exact fin (.dictAdd n vs) _ rfl (keeps_args (others_set (by simp [Command.names]) _ _))
    · exact fin (.dictAdd n vs) st rfl (.refl ..)
    · exact fin (.dictAdd n vs) _ rfl (keeps_args (others_set (by simp [Command.names]) _ _))
  | dictSet n vs =>
    simp only [Command.run]
    unfold cmdDictPut fails done
    dsimp only
    repeat' split
    · exact fin (.dictSet n vs) _ rfl (keeps_args (others_set (by simp [Command.names]) _ _))
    · exact fin (.dictSet n vs) st rfl (.refl ..)
    · exact fin (.dictSet n vs) _ rfl (keeps_args (others_set (by simp [Command.names]) _ _))
  | dictRemove n ks =>
    simp only [Command.run]
    unfold cmdDictRemove done
    dsimp only
    repeat' split
    · exact fin (.dictRemove n ks) st rfl (.refl ..)
    · exact fin (.dictRemove n ks) _ rfl (keeps_args ((others_del (by simp [Command.names]) _).trans (others_set (by simp [Command.names]) _ _)))
    · exact fin (.dictRemove n ks) _ rfl (keeps_args (others_set (by simp [Command.names]) _ _))
  | dictReplaceIfEqual n k o v =>
    simp only [Command.run]
    unfold cmdDictReplaceIfEqual done fails
    dsimp only
    repeat' split
    all_goals first
      | exact fin (.dictReplaceIfEqual n k o v) st rfl (.refl ..)
      | exact fin (.dictReplaceIfEqual n k o v) _ rfl (keeps_args (others_set (by simp [Command.names]) _ _))
  | dictListAdd n k vs =>
    exact fin (.dictListAdd n k vs) _ rfl (keeps_args (others_set (by simp [Command.names]) _ _))

theorem attr_others {K : List Bytes} {k : Bytes} (hk : k ∉ K) (l : List Expr) : attr k (others K l) = attr k l := by
  induction l with
  | nil => rfl
  | cons x l ih =>
    rw [others_cons]
    by_cases hd : Defines k x
    · obtain ⟨c, i, p, o, lb, r, rfl, rfl⟩ := hd
      rw [if_neg (by simpa [definesAny] using hk)]
      simp [attr]
    · rw [attr_skip k x l hd]
      split
      · exact ih
      · rw [attr_skip k x _ hd]; exact ih

/-- **C65** In particular, every attribute the command does not name keeps its value. -/
theorem C65_other_attributes (fuel : Nat) (E : Env) (c : Command) (st : St) (k : Bytes) (hk : k ∉ c.names st.args) :
    attr k (c.run fuel E st).st.args = attr k st.args := by
  rw [← attr_others hk, (C65_frame fuel E c st).1, attr_others hk]

end Verif.Props.Commands
