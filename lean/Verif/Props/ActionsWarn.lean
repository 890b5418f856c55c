import Verif.Model.ActionsWarn
import Verif.Props.ApiWarn
import Verif.Props.NotLoaded
import Verif.Props.Macro
import Verif.Props.TypeWarn
import Verif.Props.FixTree
/-
C92: the fixes for the old functions of `ctx`, for `output_group` and for `args.add`. C93: further checks of the Bazel API.
-/
namespace Verif.Props.ActionsWarn
open Verif Verif.Syntax Verif.Walk Verif.ApiWarn Verif.ActionsWarn Verif.Bzlenv Verif.Types
open Verif.Props.ApiWarn (Keyword Renamed First getParam_none getParam_some getParam_first set_split)
open Verif.Props.Types (KidTy kidTy_iff)
open Verif.Props.NotLoaded (Unbound unbound_iff forall2_mapSelf)
open Verif.Props.Bzlenv (Ancestors C56_resolve C56_complete)
open Verif.Props.Macro (Node node_occ)

/-! ## Specification of C92 -/

/-- one of the arguments is `name = …` -/
def HasKeyword (name : Bytes) (l : List Expr) : Prop := ∃ x ∈ l, ∃ v, Keyword name v x

/-- the call `ctx.name(args)`, and the same call of another function and with other arguments -/
inductive CtxCall : Expr → Bytes → List Expr → (Bytes → List Expr → Expr) → Prop
  | mk (c c' ci pi d q name p l t a b) : CtxCall (.call c (.dot c' (.ident ⟨ci, pi, b!"ctx"⟩) d q name) p l t a b) name l
      fun name' l' => .call c (.dot c' (.ident ⟨ci, pi, b!"ctx"⟩) d q name') p l' t a b

/-- the new names of the old functions -/
inductive NewName : Bytes → List Expr → Bytes → Prop
  | file (l) : NewName b!"new_file" l b!"actions.declare_file"
  | directory (l) : NewName b!"experimental_new_directory" l b!"actions.declare_directory"
  | write (l) : NewName b!"file_action" l b!"actions.write"
  | runShell (l) : HasKeyword b!"command" l → NewName b!"action" l b!"actions.run_shell"
  | run (l) : ¬ HasKeyword b!"command" l → NewName b!"action" l b!"actions.run"
  | nothing (l) : NewName b!"empty_action" l b!"actions.do_nothing"
  | template (l) : NewName b!"template_action" l b!"actions.expand_template"

/-- the value of an argument -/
inductive Value : Expr → Expr → Prop
  | named (c x p op lb v) : Value (.assign c x p op lb v) v
  | plain (e) : (∀ c x p op lb v, e ≠ .assign c x p op lb v) → Value e e

/-- the argument with the name `sibling` -/
inductive Sibling : Expr → Expr → Prop
  | already (c ci pi p op lb v) : Sibling (.assign c (.ident ⟨ci, pi, b!"sibling"⟩) p op lb v) (.assign c (.ident ⟨ci, pi, b!"sibling"⟩) p op lb v)
  | named (c x p op lb v) : (∀ ci pi, x ≠ .ident ⟨ci, pi, b!"sibling"⟩) → Sibling (.assign c x p op lb v) (.assign c (.ident { name := b!"sibling" }) p op lb v)
  | plain (e) : (∀ c x p op lb v, e ≠ .assign c x p op lb v) → Sibling e (.assign {} (.ident { name := b!"sibling" }) {} b!"=" false e)

/-- the new arguments; there are none for `new_file` with three arguments -/
inductive NewArgs : Bytes → List Expr → List Expr → Prop
  | swapped (a b a' b') : Value b b' → Sibling a a' → NewArgs b!"new_file" [a, b] [b', a']
  | single (l) : l.length ≤ 1 → NewArgs b!"new_file" l l
  | executable (name l a e v b y) : name = b!"file_action" ∨ name = b!"template_action" → First b!"executable" l a e v b →
      Renamed b!"is_executable" v e y → NewArgs name l (a ++ y :: b)
  | plain (name l) : name = b!"file_action" ∨ name = b!"template_action" → ¬ HasKeyword b!"executable" l → NewArgs name l l
  | same (name l) : name = b!"experimental_new_directory" ∨ name = b!"action" ∨ name = b!"empty_action" → NewArgs name l l

/-- `w` is the call `v` of an old function, in terms of the new one -/
inductive Modern (v : Expr) : Expr → Prop
  | mk (name l g new l') : CtxCall v name l g → NewName name l new → NewArgs name l l' → Modern v (g new l')

/-- calls of old functions inside `v` are replaced in `w`, and nothing else changes -/
inductive Updated : Expr → Expr → Prop
  | keep (v ks) : Forall2 Updated (slots v) ks → Updated v (withSlots v ks)
  | new (v w ks) : Modern v w → Forall2 Updated (slots w) ks → Updated v (withSlots w ks)

/-- `w` is `v` with all calls of old functions replaced -/
inductive AllUpdated : Expr → Expr → Prop
  | keep (v ks) : (∀ w, ¬ Modern v w) → Forall2 AllUpdated (slots v) ks → AllUpdated v (withSlots v ks)
  | new (v w ks) : Modern v w → Forall2 AllUpdated (slots w) ks → AllUpdated v (withSlots w ks)

/-- `y` is an argument of the call `x`, by position or by keyword -/
inductive ArgOf : Expr → Expr → Prop
  | arg (c x p l t a b y) : y ∈ l → ArgOf (.call c x p l t a b) y
  | value (c x p l t a b c' n p' op lb y) : .assign c' n p' op lb y ∈ l → ArgOf (.call c x p l t a b) y

/-! ## One call -/

theorem hasKeyword_iff (name : Bytes) (l : List Expr) : (getParam name l).isSome = true ↔ HasKeyword name l := by
  cases h : getParam name l with
  | none =>
    rw [getParam_none] at h
    exact ⟨(by intro h; cases h), fun ⟨x, hx, v, hk⟩ => absurd hk (h x hx v)⟩
  | some r =>
    obtain ⟨a, b, hf, _⟩ := getParam_some (q := r.2) (i := r.1) h
    exact ⟨fun _ => ⟨_, by rw [hf.split]; simp, _, hf.is⟩, fun _ => rfl⟩

theorem newName_iff (name : Bytes) (l : List Expr) (new : Bytes) : newName name l = some new ↔ NewName name l new := by
  constructor
  · unfold newName
    intro h
    split at h
    · cases h; rename_i h; subst h; exact .file l
    split at h
    · cases h; rename_i h; subst h; exact .directory l
    split at h
    · cases h; rename_i h; subst h; exact .write l
    split at h
    · rename_i hn
      subst hn
      split at h
      · rename_i hk
        cases h; exact .runShell l ((hasKeyword_iff _ _).1 hk)
      · rename_i hk
        cases h; exact .run l (fun hh => hk ((hasKeyword_iff _ _).2 hh))
    split at h
    · cases h; rename_i h; subst h; exact .nothing l
    split at h
    · cases h; rename_i h; subst h; exact .template l
    · cases h
  · intro h
    cases h with
    | file => rfl
    | directory => rfl
    | write => rfl
    | runShell _ h => rw [newName, if_neg (by decide), if_neg (by decide), if_neg (by decide), if_pos rfl, if_pos ((hasKeyword_iff _ _).2 h)]
    | run _ h => rw [newName, if_neg (by decide), if_neg (by decide), if_neg (by decide), if_pos rfl, if_neg (fun hh => h ((hasKeyword_iff _ _).1 hh))]
    | nothing => rfl
    | template => rfl

theorem ctxCall_some {e : Expr} {name : Bytes} {l : List Expr} (h : ctxCall e = some (name, l)) :
    (∃ g, CtxCall e name l g ∧ ∀ new l', renameCall new l' e = g new l') ∧ ∃ new, newName name l = some new := by
  unfold ctxCall at h
  split at h
  · rename_i c c' b d q n p l' t a bb
    split at h
    · rename_i hc
      cases h
      obtain ⟨ci, pi, nm⟩ := b
      obtain ⟨h1, h2⟩ := hc
      dsimp only at h1
      subst h1
      exact ⟨⟨_, .mk _ _ _ _ _ _ _ _ _ _ _ _, fun _ _ => rfl⟩, Option.isSome_iff_exists.1 h2⟩
    · cases h
  · cases h

theorem ctxCall_of {e : Expr} {name : Bytes} {l : List Expr} {g} (h : CtxCall e name l g) (hn : ∃ new, newName name l = some new) : ctxCall e = some (name, l) := by
  cases h
  unfold ctxCall
  dsimp only
  rw [if_pos ⟨rfl, Option.isSome_iff_exists.2 hn⟩]

theorem ctxCall_none {e : Expr} (h : ctxCall e = none) : ∀ w, ¬ Modern e w := by
  rintro w ⟨name, l, g, new, l', hc, hn, _⟩
  rw [ctxCall_of hc ⟨new, (newName_iff _ _ _).2 hn⟩] at h
  cases h

/-- the argument as a node -/
def plainArg : NewArg → Expr
  | .shared e => e
  | .copied c i p op lb rhs => .assign c (.ident i) p op lb rhs

theorem makePositional_value (e : Expr) : Value e (makePositional e) := by
  unfold makePositional
  split
  · exact .named _ _ _ _ _ _
  · rename_i h
    exact .plain e (fun c x p op lb v he => h c x p op lb v he)

theorem sibling_ok (e : Expr) : Sibling e (plainArg (sibling e)) := by
  unfold sibling
  split
  · rename_i c lhs p op lb rhs
    split
    · rename_i i
      obtain ⟨ci, pi, nm⟩ := i
      split
      · rename_i h
        dsimp only at h
        subst h
        exact .already _ _ _ _ _ _ _
      · rename_i h
        refine .named _ _ _ _ _ _ ?_
        intro ci' pi' he
        cases he
        exact h rfl
    · rename_i h
      exact .named _ _ _ _ _ _ (fun ci pi he => h _ he)
  · rename_i h
    exact .plain e (fun c x p op lb v he => h c x p op lb v he)

theorem plain_shared (l : List Expr) : (l.map NewArg.shared).map plainArg = l := by
  rw [List.map_map]
  conv => rhs; rw [← List.map_id l]
  rfl

theorem newArgs_ok {name : Bytes} {l : List Expr} (hf : fixable name l = true) (hn : ∃ new, NewName name l new) :
    NewArgs name l ((newArgs name l).map plainArg) := by
  have hx : name = b!"file_action" ∨ name = b!"template_action" → NewArgs name l ((isExecutable l).map plainArg) := by
    intro h
    unfold isExecutable
    split
    · rename_i i q hq
      obtain ⟨a, b, h1, h2, h3⟩ := getParam_some hq
      obtain ⟨qc, ⟨qci, qpi, qn⟩, qp, qop, qlb, qrhs⟩ := q
      dsimp only at h1 h2 h3 ⊢
      subst h3
      have he : ((l.map NewArg.shared).set i (.copied qc ⟨qci, qpi, b!"is_executable"⟩ qp qop qlb qrhs)).map plainArg =
          a ++ .assign qc (.ident ⟨qci, qpi, b!"is_executable"⟩) qp qop qlb qrhs :: b := by
        rw [List.map_set, plain_shared, h2, h1.split, set_split]
        rfl
      rw [he]
      exact NewArgs.executable name l a _ qrhs b _ h h1 (.mk _ _ _ _ _ _ _ _)
    · rename_i hq
      rw [plain_shared]
      exact .plain _ _ h (fun hh => by rw [← hasKeyword_iff, hq] at hh; cases hh)
  obtain ⟨new, hn⟩ := hn
  unfold newArgs
  cases hn with
  | file =>
    rw [if_pos rfl]
    unfold fixable at hf
    simp at hf
    split
    · rename_i a b
      exact .swapped _ _ _ _ (makePositional_value b) (sibling_ok a)
    · rename_i h
      rw [plain_shared]
      refine .single _ ?_
      match l, hf, h with
      | [], _, _ => simp
      | [a], _, _ => simp
      | [a, b], _, h => exact absurd rfl (h a b)
      | _ :: _ :: _ :: _, hf, _ => simp at hf
  | directory => rw [if_neg (by decide), if_neg (by decide), plain_shared]; exact .same _ _ (by simp)
  | write => rw [if_neg (by decide), if_pos (by simp)]; exact hx (.inl rfl)
  | runShell => rw [if_neg (by decide), if_neg (by decide), plain_shared]; exact .same _ _ (by simp)
  | run => rw [if_neg (by decide), if_neg (by decide), plain_shared]; exact .same _ _ (by simp)
  | nothing => rw [if_neg (by decide), if_neg (by decide), plain_shared]; exact .same _ _ (by simp)
  | template => rw [if_neg (by decide), if_pos (by simp)]; exact hx (.inr rfl)

theorem not_fixable {name : Bytes} {l l' : List Expr} (hf : fixable name l = false) : ¬ NewArgs name l l' := by
  unfold fixable at hf
  simp at hf
  obtain ⟨rfl, h⟩ := hf
  intro hh
  cases hh with
  | swapped => simp at h
  | single _ h' => omega
  | executable _ _ _ _ _ _ _ h => exact absurd h (by decide)
  | plain _ _ h => exact absurd h (by decide)
  | same _ _ h => exact absurd h (by decide)

/-- what the parts of the new arguments are -/
theorem newArgs_parts {name : Bytes} {l : List Expr} : ∀ x ∈ newArgs name l,
    (∀ e, x = .shared e → e ∈ l ∨ ∃ c n p op lb, .assign c n p op lb e ∈ l) ∧
    (∀ c i p op lb rhs, x = .copied c i p op lb rhs → rhs ∈ l ∨ ∃ c n p op lb, .assign c n p op lb rhs ∈ l) := by
  have hs : ∀ x ∈ l.map NewArg.shared,
      (∀ e, x = .shared e → e ∈ l ∨ ∃ c n p op lb, .assign c n p op lb e ∈ l) ∧
      (∀ c i p op lb rhs, x = .copied c i p op lb rhs → rhs ∈ l ∨ ∃ c n p op lb, .assign c n p op lb rhs ∈ l) := by
    intro x hx
    obtain ⟨e, he, rfl⟩ := List.mem_map.1 hx
    exact ⟨(by intro e' h; cases h; exact .inl he), fun _ _ _ _ _ _ h => by cases h⟩
  intro x hx
  unfold newArgs at hx
  split at hx
  · split at hx
    · rename_i a b
      rcases List.mem_cons.1 hx with rfl | hx
      · refine ⟨?_, fun _ _ _ _ _ _ h => by cases h⟩
        intro e he
        cases he
        unfold makePositional
        split
        · exact .inr ⟨_, _, _, _, _, .tail _ (.head _)⟩
        · exact .inl (by simp)
      · have hx := List.mem_singleton.1 hx
        subst hx
        unfold sibling
        split
        · rename_i c lhs p op lb rhs
          split
          · split
            · exact ⟨(by intro e he; cases he; exact .inl (by simp)), fun _ _ _ _ _ _ h => by cases h⟩
            · exact ⟨(by intro e he; cases he), (by intro _ _ _ _ _ _ h; cases h; exact .inr ⟨_, _, _, _, _, .head _⟩)⟩
          · exact ⟨(by intro e he; cases he), (by intro _ _ _ _ _ _ h; cases h; exact .inr ⟨_, _, _, _, _, .head _⟩)⟩
        · exact ⟨(by intro e he; cases he), fun _ _ _ _ _ _ h => by cases h; exact .inl (by simp)⟩
    · exact hs x hx
  · split at hx
    · unfold isExecutable at hx
      split at hx
      · rename_i i q hq
        rcases List.mem_or_eq_of_mem_set hx with hx | rfl
        · exact hs x hx
        · refine ⟨(by intro e he; cases he), fun _ _ _ _ _ _ h => ?_⟩
          cases h
          obtain ⟨a, b, h1, _⟩ := getParam_some hq
          exact .inr ⟨_, _, _, _, _, h1.split ▸ List.mem_append_right _ (.head _)⟩
      · exact hs x hx
    · exact hs x hx

/-! ## The whole file -/

theorem forall2_map2 {α : Type} {R : Expr → Expr → Prop} {f g : α → Expr} : ∀ (l : List α), (∀ x ∈ l, R (f x) (g x)) → Forall2 R (l.map f) (l.map g)
  | [], _ => .nil
  | x :: l, h => .cons (h x (by simp)) (forall2_map2 l fun y hy => h y (by simp [hy]))

theorem arg_size {e : Expr} {name : Bytes} {l : List Expr} {g} (hc : CtxCall e name l g) {x : Expr} (h : x ∈ l ∨ ∃ c n p op lb, .assign c n p op lb x ∈ l) : size x < size e := by
  cases hc with
  | mk c c' ci pi d q _ p _ t a b =>
    have hl : ∀ y ∈ l, size y < size (.call c (.dot c' (.ident ⟨ci, pi, b!"ctx"⟩) d q name) p l t a b) := fun y hy => size_slot_lt (by simp [slots, hy])
    rcases h with h | ⟨c1, n1, p1, op1, lb1, h⟩
    · exact hl x h
    · have := hl _ h
      have h2 : size x < size (.assign c1 n1 p1 op1 lb1 x) := size_slot_lt (by simp [slots])
      omega

/-- the new node and its slots -/
theorem rename_slots {e : Expr} {name : Bytes} {l : List Expr} {g} (hc : CtxCall e name l g) (new : Bytes) (l1 l2 : List Expr) :
    ∃ f, slots (g new l1) = f :: l1 ∧ g new l2 = withSlots (g new l1) (f :: l2) ∧ ∃ c ci d q, f = .dot c (.ident ci) d q new := by
  cases hc
  exact ⟨_, rfl, rfl, _, _, _, _, rfl⟩

theorem updated_dot (c : Comments) (i : IdentN) (d q : Pos) (n : Bytes) : Updated (.dot c (.ident i) d q n) (.dot c (.ident i) d q n) :=
  .keep (.dot c (.ident i) d q n) [.ident i] (.cons (.keep (.ident i) [] .nil) .nil)

theorem updated : ∀ (n : Nat) (e : Expr), size e ≤ n → ∀ live, Updated e (fixActions n live e) := by
  intro n
  induction n with
  | zero => intro e he; have := size_pos e; omega
  | succ n ih =>
    intro e he live
    have hkeep : Updated e (withSlots e ((slots e).map (fixActions n true))) :=
      .keep e _ (forall2_mapSelf _ fun x hx => ih x (by have := size_slot_lt hx; omega) true)
    rw [fixActions]
    cases hc : ctxCall e with
    | none => exact hkeep
    | some r =>
      obtain ⟨name, l⟩ := r
      dsimp only
      split
      · rename_i hlf
        rw [Bool.and_eq_true] at hlf
        obtain ⟨⟨g, hg, hr⟩, new, hn⟩ := ctxCall_some hc
        rw [hr, hn]
        obtain ⟨f, h1, h2, c, ci, d, q, hdot⟩ := rename_slots hg new ((newArgs name l).map plainArg) ((newArgs name l).map (NewArg.node (fixActions n false)))
        rw [Option.getD_some, h2]
        refine .new e _ _ (.mk name l g new _ hg ((newName_iff _ _ _).1 hn) (newArgs_ok hlf.2 ⟨new, (newName_iff _ _ _).1 hn⟩)) ?_
        rw [h1]
        refine .cons (hdot ▸ updated_dot _ _ _ _ _) (forall2_map2 _ fun x hx => ?_)
        obtain ⟨p1, p2⟩ := newArgs_parts x hx
        cases x with
        | shared y => exact ih y (by have := arg_size hg (p1 y rfl); omega) false
        | copied c i p op lb rhs =>
          exact .keep (.assign c (.ident i) p op lb rhs) [.ident i, fixActions n false rhs]
            (.cons (.keep (.ident i) [] .nil) (.cons (ih rhs (by have := arg_size hg (p2 _ _ _ _ _ _ rfl); omega) false) .nil))
      · exact hkeep

/-- **C92 (actions, the fix is faithful).** The fix replaces some calls of old functions of `ctx` by calls of the new functions and changes nothing else. -/
theorem C92_actions_faithful (f : Expr) : Updated f (fixActions (size f) true f) := updated _ f (Nat.le_refl _) true

theorem not_modern {v : Expr} (h : ∀ c x p l t a b, v ≠ .call c x p l t a b) : ∀ w, ¬ Modern v w := by
  rintro w ⟨_, _, _, _, _, hc, _, _⟩
  cases hc
  exact h _ _ _ _ _ _ _ rfl

theorem inside_slot {v x y : Expr} (hx : x ∈ slots v) (h : Props.FixTree.Inside x y) : Props.FixTree.Inside v y := .child v x y hx h

theorem inside_arg {e : Expr} {name : Bytes} {l : List Expr} {g} (hc : CtxCall e name l g) {x : Expr} (h : x ∈ l ∨ ∃ c n p op lb, .assign c n p op lb x ∈ l) :
    ArgOf e x ∧ ∀ y, Props.FixTree.Inside x y → Props.FixTree.Inside e y := by
  cases hc with
  | mk c c' ci pi d q _ p _ t a b =>
    rcases h with h | ⟨c1, n1, p1, op1, lb1, h⟩
    · exact ⟨.arg _ _ _ _ _ _ _ _ h, fun y hy => inside_slot (by simp [slots, h]) hy⟩
    · exact ⟨.value _ _ _ _ _ _ _ _ _ _ _ _ _ h, fun y hy => inside_slot (x := .assign c1 n1 p1 op1 lb1 x) (by simp [slots, h]) (inside_slot (by simp [slots]) hy)⟩

theorem allUpdated : ∀ (n : Nat) (e : Expr), size e ≤ n → ∀ live, (live = false → ∀ w, ¬ Modern e w) →
    (∀ x, Props.FixTree.Inside e x → (∃ w, Modern x w) → ∀ y, ArgOf x y → ∀ w, ¬ Modern y w) → AllUpdated e (fixActions n live e) := by
  intro n
  induction n with
  | zero => intro e he; have := size_pos e; omega
  | succ n ih =>
    intro e he live hlive hnest
    have hkeep : (∀ w, ¬ Modern e w) → AllUpdated e (withSlots e ((slots e).map (fixActions n true))) := fun hno =>
      .keep e _ hno (forall2_mapSelf _ fun x hx => ih x (by have := size_slot_lt hx; omega) true (by intro h; cases h) fun y hy => hnest y (inside_slot hx hy))
    rw [fixActions]
    cases hc : ctxCall e with
    | none => exact hkeep (ctxCall_none hc)
    | some r =>
      obtain ⟨name, l⟩ := r
      dsimp only
      obtain ⟨⟨g, hg, hr⟩, new, hn⟩ := ctxCall_some hc
      split
      · rename_i hlf
        rw [Bool.and_eq_true] at hlf
        have hmod : Modern e (g new ((newArgs name l).map plainArg)) :=
          .mk name l g new _ hg ((newName_iff _ _ _).1 hn) (newArgs_ok hlf.2 ⟨new, (newName_iff _ _ _).1 hn⟩)
        rw [hr, hn]
        obtain ⟨f, h1, h2, c, ci, d, q, hdot⟩ := rename_slots hg new ((newArgs name l).map plainArg) ((newArgs name l).map (NewArg.node (fixActions n false)))
        rw [Option.getD_some, h2]
        refine .new e _ _ hmod ?_
        have hid : ∀ i : IdentN, AllUpdated (.ident i) (.ident i) := fun i => .keep (.ident i) [] (not_modern (by intro _ _ _ _ _ _ _ h; cases h)) .nil
        have harg : ∀ x, (x ∈ l ∨ ∃ c n p op lb, .assign c n p op lb x ∈ l) → AllUpdated x (fixActions n false x) := by
          intro x hx
          obtain ⟨ha, hi⟩ := inside_arg hg hx
          exact ih x (by have := arg_size hg hx; omega) false (fun _ => hnest e (.here e) ⟨_, hmod⟩ x ha) fun y hy => hnest y (hi y hy)
        rw [h1]
        refine .cons ?_ (forall2_map2 _ fun x hx => ?_)
        · subst hdot
          exact .keep (.dot c (.ident ci) d q new) [.ident ci] (not_modern (by intro _ _ _ _ _ _ _ h; cases h)) (.cons (hid ci) .nil)
        obtain ⟨p1, p2⟩ := newArgs_parts x hx
        cases x with
        | shared y => exact harg y (p1 y rfl)
        | copied c i p op lb rhs =>
          exact .keep (.assign c (.ident i) p op lb rhs) [.ident i, fixActions n false rhs] (not_modern (by intro _ _ _ _ _ _ _ h; cases h))
            (.cons (hid i) (.cons (harg rhs (p2 _ _ _ _ _ _ rfl)) .nil))
      · rename_i hlf
        refine hkeep ?_
        cases live with
        | false => exact hlive rfl
        | true =>
          rintro w ⟨name', l', g', new', la, hc', hn', ha'⟩
          have hcc := ctxCall_of hc' ⟨new', (newName_iff _ _ _).2 hn'⟩
          rw [hc] at hcc
          cases hcc
          exact not_fixable (by simpa using hlf) ha'

/-- **C92 (actions, the fix is complete).** All calls of old functions (but `new_file` with three or more arguments) are replaced, if none of them is itself
an argument of one. -/
theorem C92_actions_complete (f : Expr)
    (hnest : ∀ x, Props.FixTree.Inside f x → (∃ w, Modern x w) → ∀ y, ArgOf x y → ∀ w, ¬ Modern y w) : AllUpdated f (fixActions (size f) true f) :=
  allUpdated _ f (Nat.le_refl _) true (by intro h; cases h) hnest

def idn (n : Bytes) : Expr := .ident { name := n }
def ctxOf (n : Bytes) (l : List Expr) : Expr := .call {} (.dot {} (idn b!"ctx") {} {} n) {} l {} false false
def kw (n : Bytes) (v : Expr) : Expr := .assign {} (idn n) {} b!"=" false v
def str (v : Bytes) : Expr := .string { value := v }

/-- **C92 (actions, witness).** A call that is an argument of another one is not replaced: `ctx.new_file(ctx.new_file("a"), "b")` becomes
`ctx.actions.declare_file("b", sibling = ctx.new_file("a"))`; the value of a keyword that is kept is. Keyword arguments of `new_file` are taken by position. -/
theorem C92_actions_witness :
    fixActions 20 true (ctxOf b!"new_file" [ctxOf b!"new_file" [str b!"a"], str b!"b"]) =
      ctxOf b!"actions.declare_file" [str b!"b", kw b!"sibling" (ctxOf b!"new_file" [str b!"a"])] ∧
    fixActions 20 true (ctxOf b!"action" [kw b!"outputs" (ctxOf b!"new_file" [str b!"a"]), kw b!"command" (str b!"c")]) =
      ctxOf b!"actions.run_shell" [kw b!"outputs" (ctxOf b!"actions.declare_file" [str b!"a"]), kw b!"command" (str b!"c")] ∧
    fixActions 20 true (ctxOf b!"new_file" [kw b!"filename" (str b!"a"), kw b!"sibling" (idn b!"s")]) =
      ctxOf b!"actions.declare_file" [idn b!"s", kw b!"sibling" (str b!"a")] := ⟨rfl, rfl, rfl⟩

/-- a file that meets the hypothesis of `C92_actions_complete` and is changed -/
theorem C92_actions_example :
    (∀ x, Props.FixTree.Inside (ctxOf b!"file_action" [kw b!"executable" (idn b!"True")]) x → (∃ w, Modern x w) → ∀ y, ArgOf x y → ∀ w, ¬ Modern y w) ∧
    fixActions 20 true (ctxOf b!"file_action" [kw b!"executable" (idn b!"True")]) = ctxOf b!"actions.write" [kw b!"is_executable" (idn b!"True")] := by
  refine ⟨?_, rfl⟩
  intro x _ ⟨w, hm⟩ y hy w'
  rename_i hi
  cases hi with
  | here =>
    cases hy with
    | arg _ _ _ _ _ _ _ _ h =>
      cases List.mem_singleton.1 h
      exact not_modern (by intro _ _ _ _ _ _ _ h; cases h) _
    | value _ _ _ _ _ _ _ _ _ _ _ _ _ h =>
      cases List.mem_singleton.1 h
      exact not_modern (by intro _ _ _ _ _ _ _ h; cases h) _
  | child _ z _ hz hi =>
    exfalso
    have leaf : ∀ (i : IdentN) x, Props.FixTree.Inside (.ident i) x → x = .ident i := by
      intro i x h
      cases h with
      | here => rfl
      | child _ _ _ h => cases h
    have nm : ∀ i : IdentN, x ≠ .ident i := by
      rintro i rfl
      exact not_modern (by intro _ _ _ _ _ _ _ h; cases h) _ hm
    simp only [ctxOf, slots, List.mem_cons, List.not_mem_nil, or_false] at hz
    rcases hz with rfl | rfl
    · cases hi with
      | here => exact not_modern (by intro _ _ _ _ _ _ _ h; cases h) _ hm
      | child _ z _ hz hi =>
        cases List.mem_singleton.1 hz
        exact nm _ (leaf _ _ hi)
    · cases hi with
      | here => exact not_modern (by intro _ _ _ _ _ _ _ h; cases h) _ hm
      | child _ z _ hz hi =>
        simp only [kw, slots, List.mem_cons, List.not_mem_nil, or_false] at hz
        rcases hz with rfl | rfl <;> exact nm _ (leaf _ _ hi)

/-! ## Output groups -/

/-- `ctx.attr.dep.output_group`, with the part before the last dot -/
inductive OutputGroup : Expr → Expr → Prop
  | mk (c c1 c2 ci pi d2 q2 d1 q1 n1 d q) : OutputGroup (.dot c (.dot c1 (.dot c2 (.ident ⟨ci, pi, b!"ctx"⟩) d2 q2 b!"attr") d1 q1 n1) d q b!"output_group")
      (.dot c1 (.dot c2 (.ident ⟨ci, pi, b!"ctx"⟩) d2 q2 b!"attr") d1 q1 n1)

/-- `w` is `v` with all `ctx.attr.dep.output_group` replaced by `ctx.attr.dep[OutputGroupInfo]` -/
inductive Grouped : Expr → Expr → Prop
  | group (v x) : OutputGroup v x → Grouped v (.index {} x {} (.ident { name := b!"OutputGroupInfo" }) {})
  | keep (v ks) : (∀ x, ¬ OutputGroup v x) → Forall2 Grouped (slots v) ks → Grouped v (withSlots v ks)

theorem outputGroup_some {v w : Expr} (h : outputGroup v = some w) : ∃ x, OutputGroup v x ∧ w = .index {} x {} (.ident { name := b!"OutputGroupInfo" }) {} := by
  unfold outputGroup at h
  split at h
  · rename_i c c1 c2 i d2 q2 n2 d1 q1 n1 d q n
    split at h
    · rename_i hc
      obtain ⟨ci, pi, nm⟩ := i
      obtain ⟨rfl, rfl, h3⟩ := hc
      dsimp only at h3
      subst h3
      cases h
      exact ⟨_, .mk _ _ _ _ _ _ _ _ _ _ _ _, rfl⟩
    · cases h
  · cases h

theorem outputGroup_none {v : Expr} (h : outputGroup v = none) : ∀ x, ¬ OutputGroup v x := by
  rintro x ⟨⟩
  cases h

/-- **C92 (output groups).** Exactly the expressions `ctx.attr.dep.output_group` are replaced, all of them, by `ctx.attr.dep[OutputGroupInfo]`. -/
theorem C92_output_group (f : Expr) : Grouped f (fixGroups (size f) f) := by
  have key : ∀ (n : Nat) (e : Expr), size e ≤ n → Grouped e (fixGroups n e) := by
    intro n
    induction n with
    | zero => intro e he; have := size_pos e; omega
    | succ n ih =>
      intro e he
      rw [fixGroups]
      cases hc : outputGroup e with
      | none => exact .keep e _ (outputGroup_none hc) (forall2_mapSelf _ fun x hx => ih x (by have := size_slot_lt hx; omega))
      | some w =>
        obtain ⟨x, hx, rfl⟩ := outputGroup_some hc
        exact .group _ _ hx
  exact key _ f (Nat.le_refl _)

/-- **C92 (output groups, witness).** The comments of the expression do not survive: the replacement does not depend on them. -/
theorem C92_output_group_witness (c c' : Comments) (d q d' q' : Pos) (x : Expr) (n : Bytes) :
    outputGroup (.dot c x d q n) = outputGroup (.dot c' x d' q' n) ∧
    outputGroup (.dot c (.dot {} (.dot {} (idn b!"ctx") {} {} b!"attr") {} {} b!"dep") d q b!"output_group") ≠ none := by
  refine ⟨?_, by intro h; cases h⟩
  unfold outputGroup
  split
  · rename_i h
    cases h
    rfl
  · rename_i h
    split
    · rename_i h'
      cases h'
      exact absurd rfl (h _ _ _ _ _ _ _ _ _ _ _ _ _)
    · rfl

/-! ## `args.add` -/

/-- the first keyword argument `name` gets another name and value, if there is one -/
inductive Param (name name' : Bytes) (value : Expr → Expr) (l : List Expr) : List Expr → Prop
  | there (a e v b y) : First name l a e v b → Renamed name' (value v) e y → Param name name' value l (a ++ y :: b)
  | none : ¬ HasKeyword name l → Param name name' value l l

/-- the new arguments of `add`, and whether there is a `join_with` -/
inductive AddArgs (l : List Expr) : Bool → List Expr → Prop
  | joined (l1 l2) : HasKeyword b!"join_with" l →
      Param b!"before_each" b!"format_each" (fun v => .binary {} v {} b!"+" false (.string { value := b!"%s" })) l l1 →
      Param b!"map_fn" b!"map_each" (fun v => v) l1 l2 → AddArgs l true l2
  | all (l') : ¬ HasKeyword b!"join_with" l → HasKeyword b!"before_each" l ∨ HasKeyword b!"map_fn" l → Param b!"map_fn" b!"map_each" (fun v => v) l l' → AddArgs l false l'

theorem setParam_ok (name name' : Bytes) (value : Expr → Expr) (l : List Expr) : Param name name' value l (setParam name name' value l) := by
  unfold setParam
  split
  · rename_i i q hq
    obtain ⟨a, b, h1, h2, h3⟩ := getParam_some hq
    obtain ⟨qc, ⟨qci, qpi, qn⟩, qp, qop, qlb, qrhs⟩ := q
    dsimp only at h1 h2 h3 ⊢
    subst h3
    rw [show l.set i (.assign qc (.ident ⟨qci, qpi, name'⟩) qp qop qlb (value qrhs)) = a ++ .assign qc (.ident ⟨qci, qpi, name'⟩) qp qop qlb (value qrhs) :: b by
      rw [h2, h1.split, set_split]]
    exact .there a _ qrhs b _ h1 (.mk _ _ _ _ _ _ _ _)
  · rename_i hq
    exact .none fun hh => by rw [← hasKeyword_iff, hq] at hh; cases hh

theorem first_unique {name : Bytes} {l a a' b b' : List Expr} {e e' v v' : Expr} (h : First name l a e v b) (h' : First name l a' e' v' b') :
    a = a' ∧ e = e' ∧ v = v' ∧ b = b' := by
  obtain ⟨q, h1, h2, h3, _⟩ := getParam_first h
  obtain ⟨q', h1', h2', h3', _⟩ := getParam_first h'
  rw [h1] at h1'
  simp only [Option.some.injEq, Prod.mk.injEq] at h1'
  obtain ⟨hl, rfl⟩ := h1'
  have hs := h.split.symm.trans h'.split
  obtain ⟨ha, hb⟩ := List.append_inj hs hl
  cases hb
  exact ⟨ha, rfl, h3.symm.trans h3', rfl⟩

theorem param_unique {name name' : Bytes} {value : Expr → Expr} {l l1 l2 : List Expr} (h : Param name name' value l l1) (h' : Param name name' value l l2) : l1 = l2 := by
  cases h with
  | there a e v b y hf hr =>
    cases h' with
    | there a' e' v' b' y' hf' hr' =>
      obtain ⟨rfl, rfl, rfl, rfl⟩ := first_unique hf hf'
      cases hr; cases hr'; rfl
    | none hn => exact absurd ⟨_, by rw [hf.split]; simp, _, hf.is⟩ hn
  | none hn =>
    cases h' with
    | there a' e' v' b' y' hf' hr' => exact absurd ⟨_, by rw [hf'.split]; simp, _, hf'.is⟩ hn
    | none => rfl

/-- **C92 (`args.add`).** A call `x.add(…)` on an object known to be `ctx.actions.args()` is fixed exactly if it has a `before_each`, `join_with` or `map_fn`: with
`join_with` it becomes `add_joined` with `format_each = … + "%s"`, otherwise `add_all`; `map_fn` becomes `map_each`. -/
theorem C92_args_add (k : TNode) (w : Expr) : argsAdd k = some w ↔
    ∃ c c' x d q p l t a b f j l', k.expr = .call c (.dot c' x d q b!"add") p l t a b ∧ k.kids[0]? = some f ∧ KidTy f 0 .ctxActionsArgs ∧ AddArgs l j l' ∧
      w = .call c (.dot c' x d q (if j then b!"add_joined" else b!"add_all")) p l' t a b := by
  constructor
  · intro h
    unfold argsAdd at h
    split at h
    · rename_i c c' x d q name p l t a b f r he hk
      split at h
      · rename_i hc
        obtain ⟨rfl, hty⟩ := hc
        dsimp only at h
        split at h
        · cases h
        · rename_i hno
          refine ⟨c, c', x, d, q, p, l, t, a, b, f, _, _, he, by rw [hk]; rfl, (kidTy_iff (by decide)).1 hty, ?_, (Option.some.inj h).symm⟩
          by_cases hj : (getParam b!"join_with" l).isSome = true
          · rw [hj, if_pos rfl]
            exact .joined _ _ ((hasKeyword_iff _ _).1 hj) (setParam_ok _ _ _ _) (setParam_ok _ _ _ _)
          · have hj' := Bool.not_eq_true _ ▸ hj
            rw [hj', if_neg (by decide)]
            refine .all _ (fun hh => hj ((hasKeyword_iff _ _).2 hh)) ?_ (setParam_ok _ _ _ _)
            rw [← hasKeyword_iff, ← hasKeyword_iff]
            cases hb : getParam b!"before_each" l with
            | some _ => exact .inl rfl
            | none =>
              cases hm : getParam b!"map_fn" l with
              | some _ => exact .inr rfl
              | none => exact absurd ⟨by rw [hb]; rfl, by rw [hj']; rfl, by rw [hm]; rfl⟩ hno
      · cases h
    · cases h
  · rintro ⟨c, c', x, d, q, p, l, t, a, b, f, j, l', he, hk, hty, ha, rfl⟩
    unfold argsAdd
    rw [he]
    cases hkids : k.kids with
    | nil => rw [hkids] at hk; cases hk
    | cons f' r =>
      rw [hkids] at hk
      cases hk
      dsimp only
      rw [if_pos ⟨rfl, (kidTy_iff (by decide)).2 hty⟩]
      cases ha with
      | joined l1 _ hj h1 h2 =>
        have hj' := (hasKeyword_iff _ _).2 hj
        rw [hj', if_neg (by simp), if_pos rfl, if_pos rfl]
        rw [param_unique (setParam_ok b!"before_each" b!"format_each" _ l) h1]
        rw [param_unique (setParam_ok b!"map_fn" b!"map_each" _ l1) h2]
      | all _ hj ho h2 =>
        have hj' : (getParam b!"join_with" l).isSome = false := by
          cases h : (getParam b!"join_with" l).isSome
          · rfl
          · exact absurd ((hasKeyword_iff _ _).1 h) hj
        rw [hj', if_neg, if_neg (by decide), if_neg (by decide)]
        · rw [param_unique (setParam_ok b!"map_fn" b!"map_each" _ l) h2]
        · rintro ⟨h1, _, h3⟩
          rw [← hasKeyword_iff, ← hasKeyword_iff] at ho
          rw [Option.isNone_iff_eq_none] at h1 h3
          rw [h1, h3] at ho
          rcases ho with ho | ho <;> cases ho

/-- `ctx.actions.args().add(xs, join_with = ",", before_each = "-I")` becomes `….add_joined(xs, join_with = ",", format_each = "-I" + "%s")` -/
theorem C92_args_add_example :
    let x := idn b!"args"
    let add (n : Bytes) (l : List Expr) : Expr := .call {} (.dot {} x {} {} n) {} l {} false false
    let old := add b!"add" [idn b!"xs", kw b!"join_with" (str b!","), kw b!"before_each" (str b!"-I")]
    argsAdd (.node old [] true .unknown [.node (.dot {} x {} {} b!"add") [] true .unknown [.node x [] true .ctxActionsArgs []]]) =
      some (add b!"add_joined" [idn b!"xs", kw b!"join_with" (str b!","), kw b!"format_each" (.binary {} (str b!"-I") {} b!"+" false (str b!"%s"))]) := rfl

/-! ## C93: other checks -/

/-- the call `name(args)` -/
inductive CallOf (name : Bytes) (l : List Expr) : Expr → Prop
  | mk (c ci pi p t a b) : CallOf name l (.call c (.ident ⟨ci, pi, name⟩) p l t a b)

/-- the call `attr.name(args)` -/
inductive AttrCallOf (name : Bytes) (l : List Expr) : Expr → Prop
  | mk (c c' ci pi d q p t a b) : AttrCallOf name l (.call c (.dot c' (.ident ⟨ci, pi, b!"attr"⟩) d q name) p l t a b)

theorem callOf_iff (name : Bytes) (e : Expr) (l : List Expr) : callOf name e = some l ↔ CallOf name l e := by
  constructor
  · intro h
    unfold callOf at h
    split at h
    · rename_i c i p l' t a b
      split at h
      · rename_i hn
        cases h
        obtain ⟨ci, pi, nm⟩ := i
        dsimp only at hn
        subst hn
        exact .mk _ _ _ _ _ _ _
      · cases h
    · cases h
  · rintro ⟨⟩
    unfold callOf
    dsimp only
    rw [if_pos rfl]

theorem callOf_isSome (name : Bytes) (e : Expr) : (callOf name e).isSome = true ↔ ∃ l, CallOf name l e := by
  rw [Option.isSome_iff_exists]
  exact exists_congr fun l => callOf_iff name e l

theorem attrCall_iff (name : Bytes) (e : Expr) (l : List Expr) : attrCall name e = some l ↔ AttrCallOf name l e := by
  constructor
  · intro h
    unfold attrCall at h
    split at h
    · rename_i c c' b d q n p l' t a bb
      split at h
      · rename_i hn
        cases h
        obtain ⟨ci, pi, nm⟩ := b
        obtain ⟨rfl, hn⟩ := hn
        dsimp only at hn
        subst hn
        exact .mk _ _ _ _ _ _ _ _ _ _
      · cases h
    · cases h
  · rintro ⟨⟩
    unfold attrCall
    dsimp only
    rw [if_pos ⟨rfl, rfl⟩]

theorem found_eq (check : Expr → Bool) (f : Expr) : found check f = ((Props.Walk.occ [] f).map (·.2)).filter check := by
  unfold found
  rw [Props.Walk.C26_walk_visits_every_node_once]
  rw [Props.ApiWarn.foldl_filter check]
  rfl

theorem found_iff (check : Expr → Bool) (f x : Expr) : x ∈ found check f ↔ Node f x ∧ check x = true := by
  rw [found_eq, List.mem_filter, node_occ (stk := [])]
  simp

/-- **C93 (attributes).** Exactly the calls `attr.output(default = …)` and `attr.license(…)` in the file are reported. -/
theorem C93_attributes (f x : Expr) :
    (x ∈ found outputDefault f ↔ Node f x ∧ ∃ l, AttrCallOf b!"output" l x ∧ HasKeyword b!"default" l) ∧
    (x ∈ found license f ↔ Node f x ∧ ∃ l, AttrCallOf b!"license" l x) := by
  constructor
  · rw [found_iff]
    refine and_congr_right fun _ => ?_
    unfold outputDefault
    cases h : attrCall b!"output" x with
    | none =>
      refine ⟨(by intro h; cases h), fun ⟨l, hl, _⟩ => ?_⟩
      rw [← attrCall_iff, h] at hl
      cases hl
    | some l =>
      dsimp only
      rw [hasKeyword_iff]
      refine ⟨fun hk => ⟨l, (attrCall_iff _ _ _).1 h, hk⟩, fun ⟨l', hl, hk⟩ => ?_⟩
      rw [← attrCall_iff, h] at hl
      cases hl
      exact hk
  · rw [found_iff]
    refine and_congr_right fun _ => ?_
    unfold license
    rw [Option.isSome_iff_exists]
    exact exists_congr fun l => attrCall_iff _ _ _

/-- an assignment, in particular a keyword argument -/
def Assignment (e : Expr) : Prop := ∃ c x p op lb v, e = .assign c x p op lb v

theorem isAssign_iff (e : Expr) : isAssign e = true ↔ Assignment e := by
  unfold isAssign
  split
  · exact ⟨fun _ => ⟨_, _, _, _, _, _, rfl⟩, fun _ => rfl⟩
  · rename_i h
    exact ⟨(by intro h; cases h), fun ⟨c, x, p, op, lb, v, he⟩ => absurd he (h c x p op lb v)⟩

/-- **C93 (depsets).** A call of `depset` is reported exactly if it has the parameter `items`, or if its first argument is positional and known to be a depset. -/
theorem C93_depset_items (k : TNode) (hl : k.kids.map TNode.expr = slots k.expr) : depsetItems k = true ↔
    ∃ l, CallOf b!"depset" l k.expr ∧ (HasKeyword b!"items" l ∨ ((∃ a r, l = a :: r ∧ ¬ Assignment a) ∧ KidTy k 1 .depset)) := by
  unfold depsetItems
  cases hc : callOf b!"depset" k.expr with
  | none =>
    refine ⟨(by intro h; cases h), fun ⟨l, h, _⟩ => ?_⟩
    rw [← callOf_iff, hc] at h
    cases h
  | some l =>
    have hcall := (callOf_iff _ _ _).1 hc
    have hlen : k.kids.length = l.length + 1 := by
      have := congrArg List.length hl
      rw [List.length_map] at this
      rw [this]
      generalize k.expr = e at hcall
      cases hcall
      rfl
    cases l with
    | nil =>
      refine ⟨(by intro h; cases h), fun ⟨l', h, h2⟩ => ?_⟩
      rw [← callOf_iff, hc] at h
      cases h
      rcases h2 with ⟨x, hx, _⟩ | ⟨⟨a, r, h, _⟩, _⟩
      · cases hx
      · cases h
    | cons a l =>
      match hk : k.kids, hlen with
      | x :: ta :: r, _ =>
        dsimp only
        rw [Bool.or_eq_true, Bool.and_eq_true, hasKeyword_iff, decide_eq_true_eq]
        have hta : KidTy k 1 .depset ↔ ta.ty = .depset := by
          unfold KidTy
          rw [hk]
          exact ⟨fun ⟨c, h1, h2⟩ => by cases h1; exact h2, fun h => ⟨ta, rfl, h⟩⟩
        have has : (!isAssign a) = true ↔ ¬ Assignment a := by
          rw [← isAssign_iff]; cases isAssign a <;> simp
        rw [has]
        constructor
        · rintro (h | ⟨h1, h2⟩)
          · exact ⟨_, hcall, .inl h⟩
          · exact ⟨_, hcall, .inr ⟨⟨_, _, rfl, h1⟩, hta.2 h2⟩⟩
        · rintro ⟨l', h, h2⟩
          rw [← callOf_iff, hc] at h
          cases h
          rcases h2 with h | ⟨⟨a', r', h, h1⟩, h2⟩
          · exact .inl h
          · cases h
            exact .inr ⟨h1, hta.1 h2⟩
      | [], h => simp at h
      | [_], h => simp at h

/-- the expression that a call of `rule` gives as implementation: the keyword, or the first argument -/
inductive Implementation (l : List Expr) : Expr → Prop
  | keyword (a e v b) : First b!"implementation" l a e v b → Implementation l v
  | first (a r) : ¬ HasKeyword b!"implementation" l → l = a :: r → Implementation l a

/-- the file defines a rule whose implementation is the function of this name -/
def IsImplementation (f : Expr) (name : Bytes) : Prop := ∃ x l ci pi, Node f x ∧ CallOf b!"rule" l x ∧ Implementation l (.ident ⟨ci, pi, name⟩)

/-- a statement that returns a struct -/
inductive ReturnsStruct : Expr → Prop
  | mk (c p r l) : CallOf b!"struct" l r → ReturnsStruct (.returnS c p r)

theorem implName_iff (e : Expr) (n : Bytes) : implName e = some n ↔ ∃ l ci pi, CallOf b!"rule" l e ∧ Implementation l (.ident ⟨ci, pi, n⟩) := by
  unfold implName
  cases hc : callOf b!"rule" e with
  | none =>
    refine ⟨(by intro h; cases h), fun ⟨l, _, _, h, _⟩ => ?_⟩
    rw [← callOf_iff, hc] at h
    cases h
  | some l =>
    have hcall := (callOf_iff _ _ _).1 hc
    have hred : (∃ l' ci pi, CallOf b!"rule" l' e ∧ Implementation l' (.ident ⟨ci, pi, n⟩)) ↔ ∃ ci pi, Implementation l (.ident ⟨ci, pi, n⟩) := by
      constructor
      · rintro ⟨l', ci, pi, h, h2⟩
        rw [← callOf_iff, hc] at h
        cases h
        exact ⟨ci, pi, h2⟩
      · rintro ⟨ci, pi, h⟩
        exact ⟨l, ci, pi, hcall, h⟩
    rw [hred]
    have hid : ∀ x : Expr, nameOf x = some n ↔ ∃ ci pi, x = .ident ⟨ci, pi, n⟩ := by
      intro x
      unfold nameOf
      split
      · rename_i i
        obtain ⟨ci, pi, nm⟩ := i
        exact ⟨fun h => by cases h; exact ⟨_, _, rfl⟩, fun ⟨_, _, h⟩ => by cases h; rfl⟩
      · rename_i h
        exact ⟨(by intro h; cases h), fun ⟨ci, pi, he⟩ => absurd he (h _)⟩
    rw [Option.bind_some, hid]
    unfold implOf
    refine exists_congr fun ci => exists_congr fun pi => ?_
    cases hg : getParam b!"implementation" l with
    | some r =>
      obtain ⟨i, q⟩ := r
      obtain ⟨a, b, hf, _⟩ := getParam_some hg
      dsimp only
      constructor
      · intro h
        rw [h] at hf
        exact .keyword _ _ _ _ hf
      · intro h
        cases h with
        | keyword a' e' _ b' hf' => exact (first_unique hf hf').2.2.1
        | first _ _ hn => exact absurd ⟨_, by rw [hf.split]; simp, _, hf.is⟩ hn
    | none =>
      have hn : ¬ HasKeyword b!"implementation" l := fun hh => by rw [← hasKeyword_iff, hg] at hh; cases hh
      constructor
      · intro h
        cases l with
        | nil => cases h
        | cons a r => exact h ▸ .first _ _ hn rfl
      · intro h
        cases h with
        | keyword a e _ b hf => exact absurd ⟨_, by rw [hf.split]; simp, _, hf.is⟩ hn
        | first a r _ he => subst he; rfl

theorem foldl_implNames : ∀ (l : List (List Expr × Expr)) (log : List Bytes) (n : Bytes),
    n ∈ l.foldl (fun log q => match implName q.2 with
      | some n => log ++ [n]
      | none => log) log ↔ n ∈ log ∨ ∃ q ∈ l, implName q.2 = some n
  | [], log, n => by simp
  | q :: l, log, n => by
    rw [List.foldl_cons, foldl_implNames l]
    cases h : implName q.2 with
    | none => simp [h]
    | some m => simp [h, eq_comm, or_assoc]

theorem implNames_iff (f : Expr) (n : Bytes) : n ∈ implNames f ↔ IsImplementation f n := by
  unfold implNames
  rw [Props.Walk.C26_walk_visits_every_node_once]
  have := foldl_implNames (Props.Walk.occ [] f) [] n
  constructor
  · intro h
    rcases this.1 h with h | ⟨⟨s, x⟩, hx, h⟩
    · cases h
    · obtain ⟨l, ci, pi, h1, h2⟩ := (implName_iff _ _).1 h
      exact ⟨x, l, ci, pi, (node_occ (stk := []) _ _).2 ⟨s, hx⟩, h1, h2⟩
  · rintro ⟨x, l, ci, pi, hx, h1, h2⟩
    obtain ⟨s, hs⟩ := (node_occ (stk := []) _ _).1 hx
    exact this.2 (.inr ⟨(s, x), hs, (implName_iff _ _).2 ⟨l, ci, pi, h1, h2⟩⟩)

/-- **C93 (rule implementations).** Exactly the statements `return struct(…)` in those top-level functions of the file that a `rule` call in the file names as its
implementation are reported. -/
theorem C93_impl_return (c : Comments) (stmts : List Expr) (x : Expr) : x ∈ implReturns c stmts ↔
    ReturnsStruct x ∧ ∃ c' p name ps b cp fc fm t, .defS c' p name ps b cp fc fm t ∈ stmts ∧ IsImplementation (.file c stmts) name ∧
      Node (.defS c' p name ps b cp fc fm t) x := by
  have hret : returnsStruct x = true ↔ ReturnsStruct x := by
    unfold returnsStruct
    split
    · rw [callOf_isSome]
      exact ⟨fun ⟨l, h⟩ => .mk _ _ _ l h, fun h => by cases h; exact ⟨_, ‹_›⟩⟩
    · rename_i h
      refine ⟨(by intro h; cases h), fun hh => ?_⟩
      cases hh
      exact absurd rfl (h _ _ _)
  unfold implReturns
  rw [List.mem_flatMap]
  constructor
  · rintro ⟨s, hs, h⟩
    split at h
    · rename_i c' p name ps b cp fc fm t
      split at h
      · rename_i hn
        rw [List.contains_iff_mem, implNames_iff] at hn
        rw [found_iff, hret] at h
        exact ⟨h.2, _, _, _, _, _, _, _, _, _, hs, hn, h.1⟩
      · cases h
    · cases h
  · rintro ⟨hr, c', p, name, ps, b, cp, fc, fm, t, hs, hn, hx⟩
    refine ⟨_, hs, ?_⟩
    dsimp only
    rw [if_pos (by rw [List.contains_iff_mem, implNames_iff]; exact hn), found_iff, hret]
    exact ⟨hx, hr⟩

/-- **C93 (providers).** A call of `provider` is reported exactly if it has no `fields`, or no documentation (a `doc` or a positional first argument), and the
finding says which. -/
theorem C93_provider (e : Expr) (fields doc : Bool) : providerCheck e = some (fields, doc) ↔
    ∃ l, CallOf b!"provider" l e ∧ (fields = true ↔ ¬ HasKeyword b!"fields" l) ∧
      (doc = true ↔ ¬ HasKeyword b!"doc" l ∧ ¬ ∃ a r, l = a :: r ∧ ¬ Assignment a) ∧ (fields = true ∨ doc = true) := by
  unfold providerCheck
  cases hc : callOf b!"provider" e with
  | none =>
    refine ⟨(by intro h; cases h), fun ⟨l, h, _⟩ => ?_⟩
    rw [← callOf_iff, hc] at h
    cases h
  | some l =>
    have hcall := (callOf_iff _ _ _).1 hc
    have hnone : ∀ n, (getParam n l).isNone = true ↔ ¬ HasKeyword n l := by
      intro n
      rw [← hasKeyword_iff]
      cases getParam n l <;> simp
    have hpos : firstPositional l = true ↔ ∃ a r, l = a :: r ∧ ¬ Assignment a := by
      cases l with
      | nil => exact ⟨(by intro h; cases h), fun ⟨_, _, h, _⟩ => by cases h⟩
      | cons a r =>
        unfold firstPositional
        have h : (!isAssign a) = true ↔ ¬ Assignment a := by
          rw [← isAssign_iff]; cases isAssign a <;> simp
        rw [h]
        exact ⟨fun h => ⟨_, _, rfl, h⟩, fun ⟨_, _, he, h⟩ => by cases he; exact h⟩
    dsimp only
    have hf := hnone b!"fields"
    have hd : ((getParam b!"doc" l).isNone && !firstPositional l) = true ↔ ¬ HasKeyword b!"doc" l ∧ ¬ ∃ a r, l = a :: r ∧ ¬ Assignment a := by
      rw [Bool.and_eq_true, hnone, ← hpos]
      cases firstPositional l <;> simp
    generalize (getParam b!"fields" l).isNone = F at *
    generalize ((getParam b!"doc" l).isNone && !firstPositional l) = D at *
    constructor
    · intro h
      split at h
      · rename_i hor
        cases h
        exact ⟨l, hcall, hf, hd, by simpa using hor⟩
      · cases h
    · rintro ⟨l', h, h1, h2, h3⟩
      rw [← callOf_iff, hc] at h
      cases h
      have e1 : fields = F := by rw [Bool.eq_iff_iff, h1, hf]
      have e2 : doc = D := by rw [Bool.eq_iff_iff, h2, hd]
      subst e1 e2
      rw [if_pos (by simpa using h3)]

/-- **C93 (attribute names).** The names reported at a dictionary are those of its string keys that are in the list; nothing is reported at other nodes. -/
theorem C93_attr_names (names : List Bytes) (e : Expr) (n : Bytes) : n ∈ attrNames names e ↔
    n ∈ names ∧ ∃ c p l t fm c' s p' v, e = .dict c p l t fm ∧ .keyValue c' (.string s) p' v ∈ l ∧ s.value = n := by
  unfold attrNames
  split
  · rename_i c p l t fm
    rw [List.mem_flatMap]
    constructor
    · rintro ⟨x, hx, h⟩
      cases hk : stringKey x with
      | none => rw [hk] at h; cases h
      | some v =>
        rw [hk] at h
        unfold stringKey at hk
        split at hk
        · rename_i c' s p' v'
          cases hk
          rw [List.mem_filter, decide_eq_true_eq] at h
          exact ⟨h.1, _, _, _, _, _, _, _, _, _, rfl, hx, h.2⟩
        · cases hk
    · rintro ⟨hn, c, p, l', t', fm', c', s, p', v, he, hx, hs⟩
      cases he
      refine ⟨_, hx, ?_⟩
      dsimp only [stringKey]
      rw [List.mem_filter, decide_eq_true_eq]
      exact ⟨hn, hs⟩
  · rename_i h
    exact ⟨(by intro h; cases h), fun ⟨_, c, p, l, t, fm, _, _, _, _, he, _⟩ => absurd he (h _ _ _ _ _)⟩

theorem visit {root : Expr} (hroot : ∀ c l, ¬ Props.Bzlenv.Inside root (.file c l)) {x : Expr} (hx : x.isNil = false) (n : Bytes) :
    (∃ env, (x, env) ∈ walkAll root ∧ (get n env.blocks).isNone = true) ↔ ∃ stk, Ancestors root stk x ∧ Unbound stk n := by
  constructor
  · rintro ⟨env, h1, h2⟩
    obtain ⟨ha, hr⟩ := C56_resolve root hroot x env h1
    exact ⟨_, ha, (unbound_iff hr n).1 h2⟩
  · rintro ⟨stk, ha, hu⟩
    obtain ⟨env, h1, h2⟩ := C56_complete root x stk ha hx
    exact ⟨env, h1, (unbound_iff (C56_resolve root hroot x env h1).2 n).2 (by rw [h2]; exact hu)⟩

/-- **C93 (`FileType`).** Exactly the calls of `FileType` at a place where the name has no binding are reported. -/
theorem C93_file_type (root : Expr) (hroot : ∀ c l, ¬ Props.Bzlenv.Inside root (.file c l)) (x : Expr) :
    x ∈ fileTypes root ↔ (∃ l, CallOf b!"FileType" l x) ∧ ∃ stk, Ancestors root stk x ∧ Unbound stk b!"FileType" := by
  unfold fileTypes
  rw [List.mem_map]
  constructor
  · rintro ⟨⟨y, env⟩, h, rfl⟩
    rw [List.mem_filter, Bool.and_eq_true, callOf_isSome] at h
    obtain ⟨h1, ⟨l, h2⟩, h3⟩ := h
    exact ⟨⟨l, h2⟩, (visit hroot (by dsimp only; generalize y = z at h2; cases h2; rfl) _).1 ⟨env, h1, h3⟩⟩
  · rintro ⟨⟨l, h2⟩, h⟩
    obtain ⟨env, h1, h3⟩ := (visit hroot (by cases h2; rfl) _).2 h
    exact ⟨(x, env), by rw [List.mem_filter, Bool.and_eq_true, callOf_isSome]; exact ⟨h1, ⟨l, h2⟩, h3⟩, rfl⟩

/-- **C93 (global variables).** Exactly the mentions of the variable at a place where the name has no binding are reported. -/
theorem C93_global_variable (global : Bytes) (root : Expr) (hroot : ∀ c l, ¬ Props.Bzlenv.Inside root (.file c l)) (x : Expr) :
    x ∈ globalUses global root ↔ (∃ ci pi, x = .ident ⟨ci, pi, global⟩) ∧ ∃ stk, Ancestors root stk x ∧ Unbound stk global := by
  unfold globalUses
  rw [List.mem_map]
  constructor
  · rintro ⟨⟨y, env⟩, h, rfl⟩
    rw [List.mem_filter] at h
    obtain ⟨h1, h2⟩ := h
    dsimp only at h2
    split at h2
    · rename_i i
      obtain ⟨ci, pi, nm⟩ := i
      rw [Bool.and_eq_true, decide_eq_true_eq] at h2
      obtain ⟨h2, h3⟩ := h2
      dsimp only at h2 h3
      subst h2
      exact ⟨⟨_, _, rfl⟩, (visit hroot rfl _).1 ⟨env, h1, h3⟩⟩
    · cases h2
  · rintro ⟨⟨ci, pi, rfl⟩, h⟩
    obtain ⟨env, h1, h3⟩ := (visit hroot rfl _).2 h
    refine ⟨(_, env), by rw [List.mem_filter]; exact ⟨h1, by dsimp only; rw [h3]; simp⟩, rfl⟩

/-- **C93 (examples).** `rule(implementation = _impl)` with `def _impl(ctx): return struct()`; `provider()`; an attribute `licenses`; and `FileType` used as
a global and as a parameter. -/
theorem C93_example :
    let ret : Expr := .returnS {} {} (.call {} (idn b!"struct") {} [] {} false false)
    let d (n : Bytes) (ps b : List Expr) : Expr := .defS {} {} n ps b {} false false .nil
    let cal (n : Bytes) (l : List Expr) : Expr := .call {} (idn n) {} l {} false false
    implReturns {} [d b!"_impl" [idn b!"ctx"] [ret], d b!"_other" [] [ret], kw b!"r" (cal b!"rule" [kw b!"implementation" (idn b!"_impl")])] = [ret] ∧
    providerCheck (cal b!"provider" []) = some (true, true) ∧
    attrNames [b!"licenses"] (.dict {} {} [.keyValue {} (str b!"licenses") {} (idn b!"x")] {} false) = [b!"licenses"] ∧
    fileTypes (.file {} [cal b!"FileType" [], d b!"f" [idn b!"FileType"] [cal b!"FileType" []]]) = [cal b!"FileType" []] ∧
    (globalUses b!"PACKAGE_NAME" (.file {} [kw b!"x" (idn b!"PACKAGE_NAME")])).length = 1 := ⟨rfl, rfl, rfl, rfl, rfl⟩

end Verif.Props.ActionsWarn
