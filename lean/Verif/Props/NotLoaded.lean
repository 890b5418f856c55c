import Verif.Model.NotLoaded
import Verif.Props.Visits
import Verif.Props.LoadEdit
import Verif.Props.Labels
import Verif.Proofs.MapE
import Verif.Proofs.SortStrings
/-
C81: symbols that must be loaded. What is reported, what the fix does, and that nothing is left to report.
-/
namespace Verif.Props.NotLoaded
open Verif Verif.Syntax Verif.Walk Verif.Bzlenv Verif.NotLoaded Verif.Edit Verif.Props.Bzlenv

/-! ## Specification -/

/-- the name has no binding around a node with these ancestors -/
def Unbound (stk : List Expr) (n : Bytes) : Prop := ∀ w ∈ stk, ∀ k d, ¬ Binds w n k d

/-- the call `native.name(…)` with a name of the list -/
inductive NativeCall (functions : List Bytes) (name : Bytes) : Expr → Prop
  | mk (c c' ci pi d q p l t a b) : name ∈ functions → NativeCall functions name (.call c (.dot c' (.ident ⟨ci, pi, b!"native"⟩) d q name) p l t a b)

/-- The file uses the name as a global: it calls the function without a binding for it, calls it as `native.name`, or mentions the symbol without a binding
for it. -/
inductive Uses (functions symbols : List Bytes) (root : Expr) : Bytes → Bool → Prop
  | call (stk c i p l t a b) : Ancestors root stk (.call c (.ident i) p l t a b) → i.name ∈ functions → Unbound stk i.name → Uses functions symbols root i.name false
  | native (stk x n) : Ancestors root stk x → NativeCall functions n x → Uses functions symbols root n true
  | symbol (stk i) : Ancestors root stk (.ident i) → i.name ∈ symbols → Unbound stk i.name → Uses functions symbols root i.name false

/-- `w` is `v` with every `native.f(…)` replaced by `f(…)` -/
inductive Unnative (functions : List Bytes) : Expr → Expr → Prop
  | native (c c' ci pi d q n p l l' t a b) : n ∈ functions → Forall2 (Unnative functions) l l' →
      Unnative functions (.call c (.dot c' (.ident ⟨ci, pi, b!"native"⟩) d q n) p l t a b) (.call c (.ident { name := n }) p l' t a b)
  | other (v ks) : (∀ n, ¬ NativeCall functions n v) → Forall2 (Unnative functions) (slots v) ks → Unnative functions v (withSlots v ks)

/-- comments and strings, which a load is not put in front of -/
def Prelude (e : Expr) : Prop := (∃ c p, e = .commentBlock c p) ∨ ∃ s, e = .string s

/-! ## What is reported -/

theorem unbound_iff {stk : List Expr} {blocks : List Block} (h : ∀ n, Resolved stk n (get n blocks)) (n : Bytes) :
    (get n blocks).isNone = true ↔ Unbound stk n := by
  have := h n
  cases hg : get n blocks with
  | none => rw [hg] at this; exact ⟨fun _ => this, fun _ => rfl⟩
  | some i =>
    rw [hg] at this
    obtain ⟨_, a, w, b, e, hb, _⟩ := this
    exact ⟨(by intro h; cases h), fun hu => absurd hb (hu w (by rw [e]; simp) _ _)⟩

theorem functionUse_iff (functions : List Bytes) (x : Expr) (env : Env) (hr : ∀ n, Resolved env.stack n (get n env.blocks)) (f : Found) :
    f ∈ functionUse functions x env ↔
      (∃ c i p l t a b, x = .call c (.ident i) p l t a b ∧ i.name ∈ functions ∧ Unbound env.stack i.name ∧ f = ⟨i.name, false⟩) ∨
      (∃ n, NativeCall functions n x ∧ f = ⟨n, true⟩) := by
  unfold functionUse
  split
  · rename_i c c' i d q name p l t a b
    obtain ⟨ci, pi, nm⟩ := i
    constructor
    · intro h
      split at h
      · rename_i hc
        obtain ⟨h1, h2⟩ := hc
        dsimp only at h1
        subst h1
        cases List.mem_singleton.1 h
        exact .inr ⟨name, .mk _ _ _ _ _ _ _ _ _ _ _ (by simpa using h2), rfl⟩
      · cases h
    · rintro (⟨_, _, _, _, _, _, _, h, _⟩ | ⟨n, h, rfl⟩)
      · injection h with _ h; cases h
      · cases h with
        | mk _ _ _ _ _ _ _ _ _ _ _ hn => rw [if_pos ⟨rfl, by simpa using hn⟩]; exact List.mem_singleton.2 rfl
  · rename_i c i p l t a b
    constructor
    · intro h
      split at h
      · rename_i hc
        cases List.mem_singleton.1 h
        exact .inl ⟨_, _, _, _, _, _, _, rfl, by simpa using hc.2, (unbound_iff hr _).1 hc.1, rfl⟩
      · cases h
    · rintro (⟨_, i', _, _, _, _, _, h, h1, h2, rfl⟩ | ⟨n, h, rfl⟩)
      · injection h with _ h _ _ _ _ _
        injection h with h
        subst h
        rw [if_pos ⟨(unbound_iff hr _).2 h2, by simpa using h1⟩]
        exact List.mem_singleton.2 rfl
      · cases h
  · rename_i h1 h2
    constructor
    · intro h; cases h
    · rintro (⟨_, _, _, _, _, _, _, rfl, _⟩ | ⟨n, h, rfl⟩)
      · exact absurd rfl (h2 _ _ _ _ _ _ _)
      · cases h; exact absurd rfl (h1 _ _ _ _ _ _ _ _ _ _ _)

theorem symbolUse_iff (symbols : List Bytes) (x : Expr) (env : Env) (hr : ∀ n, Resolved env.stack n (get n env.blocks)) (f : Found) :
    f ∈ symbolUse symbols x env ↔ ∃ i, x = .ident i ∧ i.name ∈ symbols ∧ Unbound env.stack i.name ∧ f = ⟨i.name, false⟩ := by
  unfold symbolUse
  split
  · rename_i i
    constructor
    · intro h
      split at h
      · rename_i hc
        cases List.mem_singleton.1 h
        exact ⟨_, rfl, by simpa using hc.2, (unbound_iff hr _).1 hc.1, rfl⟩
      · cases h
    · rintro ⟨i', h, h1, h2, rfl⟩
      injection h with h
      subst h
      rw [if_pos ⟨(unbound_iff hr _).2 h2, by simpa using h1⟩]
      exact List.mem_singleton.2 rfl
  · rename_i h1
    constructor
    · intro h; cases h
    · rintro ⟨i, rfl, _⟩; exact absurd rfl (h1 _)

/-- **C81**: exactly the uses of the names as globals are reported; a name that is bound around the use is not, a call `native.f` always is. -/
theorem C81_reported (functions symbols : List Bytes) (root : Expr) (hroot : ∀ c l, ¬ Inside root (.file c l)) (n : Bytes) (b : Bool) :
    ⟨n, b⟩ ∈ findings functions symbols root ↔ Uses functions symbols root n b := by
  unfold findings
  rw [List.mem_flatMap]
  constructor
  · rintro ⟨⟨x, env⟩, hv, h⟩
    obtain ⟨ha, hr⟩ := C56_resolve root hroot x env hv
    rcases List.mem_append.1 h with h | h
    · rcases (functionUse_iff _ _ _ hr _).1 h with ⟨c, i, p, l, t, a, b', rfl, h1, h2, h3⟩ | ⟨m, h1, h2⟩
      · cases h3; exact .call _ _ _ _ _ _ _ _ ha h1 h2
      · cases h2; exact .native _ _ _ ha h1
    · obtain ⟨i, rfl, h1, h2, h3⟩ := (symbolUse_iff _ _ _ hr _).1 h
      cases h3; exact .symbol _ _ ha h1 h2
  · have visit : ∀ stk x, Ancestors root stk x → x.isNil = false → ∃ env, (x, env) ∈ walkAll root ∧ env.stack = stk ∧ ∀ n, Resolved env.stack n (get n env.blocks) := by
      intro stk x ha hx
      obtain ⟨env, h1, h2⟩ := C56_complete root x stk ha hx
      exact ⟨env, h1, h2, (C56_resolve root hroot x env h1).2⟩
    rintro (⟨stk, c, i, p, l, t, a, b', ha, h1, h2⟩ | ⟨stk, x, n, ha, h1⟩ | ⟨stk, i, ha, h1, h2⟩)
    · obtain ⟨env, hv, hs, hr⟩ := visit _ _ ha rfl
      exact ⟨_, hv, List.mem_append.2 (.inl ((functionUse_iff _ _ _ hr _).2 (.inl ⟨_, _, _, _, _, _, _, rfl, h1, by rw [hs]; exact h2, rfl⟩)))⟩
    · obtain ⟨env, hv, hs, hr⟩ := visit _ _ ha (by cases h1; rfl)
      exact ⟨_, hv, List.mem_append.2 (.inl ((functionUse_iff _ _ _ hr _).2 (.inr ⟨_, h1, rfl⟩)))⟩
    · obtain ⟨env, hv, hs, hr⟩ := visit _ _ ha rfl
      exact ⟨_, hv, List.mem_append.2 (.inr ((symbolUse_iff _ _ _ hr _).2 ⟨_, rfl, h1, by rw [hs]; exact h2, rfl⟩))⟩

/-! ## The rewriting of native calls -/

theorem nativeN_fuel (F : List Bytes) (e : Expr) : ∀ n m, size e ≤ n → size e ≤ m → nativeN F n e = nativeN F m e := by
  refine slot_induction (P := fun e => ∀ n m, size e ≤ n → size e ≤ m → nativeN F n e = nativeN F m e) ?_ e
  intro v ih n m hn hm
  have := size_pos v
  match n, m, hn, hm with
  | 0, _, hn, _ => omega
  | _, 0, _, hm => omega
  | n + 1, m + 1, hn, hm =>
    rw [nativeN, nativeN]
    congr 2
    apply List.map_congr_left
    intro x hx
    have := size_slot_lt hx
    exact ih x hx n m (by omega) (by omega)

theorem dropNatives_eq (F : List Bytes) (v : Expr) : dropNatives F v = dropNative F (insideOnly F v) := by
  unfold dropNatives insideOnly
  have := size_pos v
  cases hs : size v with
  | zero => omega
  | succ n =>
    rw [nativeN]
    congr 2
    apply List.map_congr_left
    intro x hx
    have := size_slot_lt hx
    exact nativeN_fuel F x _ _ (by omega) (Nat.le_refl _)

theorem dropNative_native {F : List Bytes} {c c' ci pi d q n p l t a b} (h : n ∈ F) :
    dropNative F (.call c (.dot c' (.ident ⟨ci, pi, b!"native"⟩) d q n) p l t a b) = .call c (.ident { name := n }) p l t a b := by
  unfold dropNative
  dsimp only
  rw [if_pos ⟨rfl, by simpa using h⟩]

theorem dropNative_other {F : List Bytes} {v : Expr} (h : ∀ n, ¬ NativeCall F n v) : dropNative F v = v := by
  unfold dropNative
  split
  · rename_i c c' i d q n p l t a b
    split
    · rename_i hc
      obtain ⟨ci, pi, nm⟩ := i
      obtain ⟨h1, h2⟩ := hc
      dsimp only at h1
      subst h1
      exact absurd (.mk _ _ _ _ _ _ _ _ _ _ _ (by simpa using h2)) (h n)
    · rfl
  · rfl

theorem native_dec (F : List Bytes) (v : Expr) : (∃ n, NativeCall F n v) ∨ ∀ n, ¬ NativeCall F n v :=
  Classical.byCases .inl fun h => .inr fun n hn => h ⟨n, hn⟩

/-- what happens to each node -/
theorem drop_ident (F : List Bytes) (i : IdentN) : dropNatives F (.ident i) = .ident i := by
  rw [dropNatives_eq]; rfl

theorem drop_string (F : List Bytes) (s : StringN) : dropNatives F (.string s) = .string s := by
  rw [dropNatives_eq]; rfl

theorem interleave_drop (F : List Bytes) (f t : List IdentN) : (interleave f t).map (dropNatives F) = interleave f t := by
  refine (List.map_congr_left (g := id) ?_).trans (List.map_id _)
  intro x hx
  have : ∀ (f t : List IdentN), ∀ x ∈ interleave f t, ∃ i, x = .ident i := by
    intro f
    induction f with
    | nil => intro t x hx; simp [interleave] at hx
    | cons a f ih =>
      intro t x hx
      cases t with
      | nil => simp [interleave] at hx
      | cons b t =>
        rw [interleave] at hx
        rcases List.mem_cons.1 hx with rfl | hx
        · exact ⟨_, rfl⟩
        · rcases List.mem_cons.1 hx with rfl | hx
          · exact ⟨_, rfl⟩
          · exact ih t x hx
  obtain ⟨i, rfl⟩ := this f t x hx
  exact drop_ident F i

theorem insideOnly_load (F : List Bytes) (c p m f t r fc) (h : f.length = t.length) :
    insideOnly F (.load c p m f t r fc) = .load c p m f t r fc := by
  unfold insideOnly
  have : (slots (.load c p m f t r fc)).map (dropNatives F) = slots (.load c p m f t r fc) := by
    simp only [slots, List.map_cons, drop_string, interleave_drop]
  rw [this]
  exact withSlots_slots _ h

theorem drop_inside {F : List Bytes} {v : Expr} (h : ∀ n, ¬ NativeCall F n (insideOnly F v)) : dropNatives F v = insideOnly F v := by
  rw [dropNatives_eq, dropNative_other h]

theorem notNative_of {F : List Bytes} {v : Expr} (h : ∀ c x p l t a b, v ≠ .call c x p l t a b) : ∀ n, ¬ NativeCall F n v := by
  intro n hn; cases hn; exact h _ _ _ _ _ _ _ rfl

theorem insideOnly_call (F : List Bytes) (c x p l t a b) : insideOnly F (.call c x p l t a b) = .call c (dropNatives F x) p (l.map (dropNatives F)) t a b := rfl

/-- a call stays a call, and is a native one only if it was -/
theorem native_inside {F : List Bytes} {n : Bytes} {v : Expr} : NativeCall F n (insideOnly F v) ↔ NativeCall F n v := by
  by_cases hc : ∃ c x p l t a b, v = .call c x p l t a b
  · obtain ⟨c, x, p, l, t, a, b, rfl⟩ := hc
    rw [insideOnly_call]
    constructor
    · intro h
      generalize hx' : dropNatives F x = x' at h
      cases h with
      | mk _ c' ci pi d q _ _ _ _ _ hn =>
        -- the callee
        cases x with
        | dot c2 y d2 q2 n2 =>
          rw [drop_inside (notNative_of (by intros; exact nofun))] at hx'
          simp only [insideOnly, slots, List.map_cons, List.map_nil, withSlots] at hx'
          injection hx' with h1 h2 h3 h4 h5
          subst h1 h3 h4 h5
          cases y with
          | ident i => rw [drop_ident] at h2; injection h2 with h2; subst h2; exact .mk _ _ _ _ _ _ _ _ _ _ _ hn
          | call c3 x3 p3 l3 t3 a3 b3 =>
            exfalso
            rw [dropNatives_eq, insideOnly_call] at h2
            unfold dropNative at h2
            split at h2
            · split at h2
              · cases h2
              · cases h2
            · cases h2
          | _ =>
            exfalso
            rw [drop_inside (notNative_of (by
              intros
              first | exact nofun | (unfold insideOnly; simp [slots, withSlots]) ))] at h2
            unfold insideOnly at h2
            simp [slots, withSlots] at h2
        | call c3 x3 p3 l3 t3 a3 b3 =>
          exfalso
          rw [dropNatives_eq, insideOnly_call] at hx'
          unfold dropNative at hx'
          split at hx'
          · split at hx' <;> cases hx'
          · cases hx'
        | _ =>
          exfalso
          rw [drop_inside (notNative_of (by
            intros
            first | exact nofun | (unfold insideOnly; simp [slots, withSlots])))] at hx'
          unfold insideOnly at hx'
          simp [slots, withSlots] at hx'
    · intro h
      cases h with
      | mk _ c' ci pi d q _ _ _ _ _ hn =>
        rw [drop_inside (notNative_of (by intros; exact nofun))]
        simp only [insideOnly, slots, List.map_cons, List.map_nil, withSlots, drop_ident]
        exact .mk _ _ _ _ _ _ _ _ _ _ _ hn
  · have h1 : ∀ c x p l t a b, v ≠ .call c x p l t a b := fun c x p l t a b h => hc ⟨c, x, p, l, t, a, b, h⟩
    have h2 : ∀ c x p l t a b, insideOnly F v ≠ .call c x p l t a b := by
      intro c x p l t a b h
      cases v <;> first | exact absurd rfl (h1 _ _ _ _ _ _ _) | (unfold insideOnly at h; simp [slots, withSlots] at h)
    exact ⟨fun h => absurd h (notNative_of h2 n), fun h => absurd h (notNative_of h1 n)⟩

theorem forall2_mapSelf {R : Expr → Expr → Prop} {g : Expr → Expr} : ∀ l : List Expr, (∀ x ∈ l, R x (g x)) → Forall2 R l (l.map g)
  | [], _ => .nil
  | x :: l, h => .cons (h x (by simp)) (forall2_mapSelf l fun y hy => h y (by simp [hy]))

theorem drop_native (F : List Bytes) {c c' ci pi d q n p l t a b} (h : n ∈ F) :
    dropNatives F (.call c (.dot c' (.ident ⟨ci, pi, b!"native"⟩) d q n) p l t a b) = .call c (.ident { name := n }) p (l.map (dropNatives F)) t a b := by
  rw [dropNatives_eq, insideOnly_call, drop_inside (notNative_of (by intros; exact nofun))]
  simp only [insideOnly, slots, List.map_cons, List.map_nil, withSlots, drop_ident]
  exact dropNative_native h

theorem drop_other {F : List Bytes} {v : Expr} (h : ∀ n, ¬ NativeCall F n v) : dropNatives F v = withSlots v ((slots v).map (dropNatives F)) :=
  drop_inside fun n hn => h n (native_inside.1 hn)

/-- **C81**: the rewriting inside a statement replaces every `native.f(…)` and nothing else. -/
theorem C81_rewriting (F : List Bytes) (v : Expr) : Unnative F v (dropNatives F v) := by
  refine slot_induction (P := fun v => Unnative F v (dropNatives F v)) ?_ v
  intro v ih
  rcases native_dec F v with ⟨n, hn⟩ | hn
  · cases hn with
    | mk c c' ci pi d q p l t a b h =>
      rw [drop_native F h]
      exact .native _ _ _ _ _ _ _ _ _ _ _ _ _ h (forall2_mapSelf _ fun x hx => ih x (by simp [slots, hx]))
  · rw [drop_other hn]
    exact .other _ _ hn (forall2_mapSelf _ ih)

theorem drop_leaf (F : List Bytes) (x : Expr) : leafKept x (dropNatives F x) := by
  cases x <;> first | exact trivial | exact ⟨_, drop_ident F _⟩ | exact ⟨_, drop_string F _⟩

theorem slots_inside (F : List Bytes) {v : Expr} (hv : lenOk v) : slots (withSlots v ((slots v).map (dropNatives F))) = (slots v).map (dropNatives F) :=
  slots_withSlots v _ (fits_of_kept v hv _ (forall2_mapSelf _ fun x _ => drop_leaf F x))

/-- afterwards there is no native call inside -/
theorem drop_complete (F : List Bytes) (v : Expr) : treeOk v → ∀ stk x n, Ancestors (dropNatives F v) stk x → ¬ NativeCall F n x := by
  refine slot_induction (P := fun v => treeOk v → ∀ stk x n, Ancestors (dropNatives F v) stk x → ¬ NativeCall F n x) ?_ v
  intro v ih hok stk x n ha hx
  rw [treeOk_iff] at hok
  rcases native_dec F v with ⟨m, hm⟩ | hm
  · cases hm with
    | mk c c' ci pi d q p l t a b h =>
      rw [drop_native F h] at ha
      rcases ancestors_top ha with ⟨_, rfl⟩ | ⟨z, stk', hz, _, hz2⟩
      · cases hx
      · simp only [slots, List.mem_cons, List.mem_map] at hz
        rcases hz with rfl | ⟨y, hy, rfl⟩
        · rcases ancestors_top hz2 with ⟨_, rfl⟩ | ⟨_, _, h, _⟩
          · cases hx
          · cases h
        · exact ih y (by simp [slots, hy]) (hok.2 y (by simp [slots, hy])) _ _ _ hz2 hx
  · have hd := drop_other hm
    rcases ancestors_top ha with ⟨_, rfl⟩ | ⟨z, stk', hz, _, hz2⟩
    · rw [hd] at hx
      exact hm n (native_inside.1 hx)
    · rw [hd, slots_inside F hok.1, List.mem_map] at hz
      obtain ⟨y, hy, rfl⟩ := hz
      exact ih y hy (hok.2 y hy) _ _ _ hz2 hx

/-! ## The load -/

theorem keys_mem (fs : List Found) (n : Bytes) : n ∈ keys fs ↔ ∃ b, (⟨n, b⟩ : Found) ∈ fs := by
  induction fs with
  | nil => simp [keys]
  | cons x l ih =>
    rw [keys]
    split
    · rename_i h
      rw [ih]
      constructor
      · rintro ⟨b, h⟩; exact ⟨b, by simp [h]⟩
      · rintro ⟨b, h1⟩
        rcases List.mem_cons.1 h1 with rfl | h1
        · exact ih.1 (by simpa using h)
        · exact ⟨b, h1⟩
    · rw [List.mem_cons, ih]
      constructor
      · rintro (rfl | ⟨b, h⟩)
        · exact ⟨x.native, by simp⟩
        · exact ⟨b, by simp [h]⟩
      · rintro ⟨b, h1⟩
        rcases List.mem_cons.1 h1 with rfl | h1
        · exact .inl rfl
        · exact .inr ⟨b, h1⟩

theorem keys_nodup (fs : List Found) : (keys fs).Nodup := by
  induction fs with
  | nil => exact List.nodup_nil
  | cons x l ih =>
    rw [keys]
    split
    · exact ih
    · rename_i h
      exact List.nodup_cons.2 ⟨by simpa using h, ih⟩

theorem strLess_lt (a b : Bytes) : strLess a b = true ↔ a < b := by
  unfold strLess
  induction a generalizing b with
  | nil => cases b <;> simp [lexLess]
  | cons x a ih =>
    cases b with
    | nil => simp [lexLess]
    | cons y b =>
      simp only [lexLess, List.cons_lt_cons_iff]
      by_cases h : x = y
      · subst h; simp [ih]
      · simp [h]

/-- the names of the load: in order, without repetition, exactly those the file uses -/
def Wanted (functions symbols : List Bytes) (root : Expr) (ns : List Bytes) : Prop :=
  ns.Pairwise (· < ·) ∧ ∀ n, n ∈ ns ↔ ∃ b, Uses functions symbols root n b

theorem names_wanted (srt : List Bytes → List Bytes) (hs : Rewrite.Sorts strLess srt) (functions symbols : List Bytes) (root : Expr)
    (hroot : ∀ c l, ¬ Inside root (.file c l)) : Wanted functions symbols root (names srt (findings functions symbols root)) := by
  obtain ⟨hp, hso⟩ := hs (keys (findings functions symbols root))
  unfold names
  constructor
  · have hnd : (srt (keys (findings functions symbols root))).Nodup := hp.nodup_iff.2 (keys_nodup _)
    refine (List.pairwise_and_iff.2 ⟨hso, hnd⟩).imp ?_
    rintro a b ⟨h1, h2⟩
    have : strLess a b = true := by
      rcases strLess_total.total a b h2 with h | h
      · exact h
      · rw [h] at h1; cases h1
    exact (strLess_lt a b).1 this
  · intro n
    rw [hp.mem_iff, keys_mem]
    constructor
    · rintro ⟨b, h⟩; exact ⟨b, (C81_reported _ _ _ hroot _ _).1 h⟩
    · rintro ⟨b, h⟩; exact ⟨b, (C81_reported _ _ _ hroot _ _).2 h⟩

theorem findings_nil {functions symbols : List Bytes} {root : Expr} (hroot : ∀ c l, ¬ Inside root (.file c l)) :
    (findings functions symbols root).isEmpty = true ↔ ∀ n b, ¬ Uses functions symbols root n b := by
  rw [List.isEmpty_iff]
  constructor
  · intro h n b hu
    have := (C81_reported _ _ _ hroot n b).2 hu
    rw [h] at this
    cases this
  · intro h
    cases hf : findings functions symbols root with
    | nil => rfl
    | cons x l => exact absurd ((C81_reported _ _ _ hroot x.name x.native).1 (by rw [hf]; simp)) (h _ _)

/-- **C81**: a file that uses none of the names is left as it is. -/
theorem C81_unchanged (srt : List Bytes → List Bytes) (ord : SymMap → SymMap) (functions symbols : List Bytes) (module : Bytes) (c : Comments) (stmts : List Expr)
    (hroot : ∀ c' l, ¬ Inside (.file c stmts) (.file c' l)) (h : ∀ n b, ¬ Uses functions symbols (.file c stmts) n b) :
    fixed srt ord functions symbols module c stmts = stmts := by
  unfold fixed
  dsimp only
  rw [if_pos ((findings_nil hroot).2 h)]

theorem symMap_same (ns : List Bytes) (h : ns.Nodup) : symMap ns ns = ns.map fun n => (n, n) := by
  have := Props.LoadEdit.symMap_self (ns.map fun n => (n, n)) (by simpa [List.map_map, Function.comp_def] using h)
  simpa [List.map_map, Function.comp_def] using this

theorem append_same (ord : SymMap → SymMap) (hord : ∀ m, (ord m).Perm m) (ns : List Bytes) (hn : ns.Nodup) (c p m f t r fc) :
    ∃ new : List Bytes, new.Perm (ns.filter fun n => n ∉ t.map (·.name)) ∧
      (appendToLoad ord ns ns (.load c p m f t r fc)).1 = .load c p m (f ++ new.map fun n => { name := n }) (t ++ new.map fun n => { name := n }) r fc ∧
      ((appendToLoad ord ns ns (.load c p m f t r fc)).2 = true ↔ new ≠ []) := by
  have hd : symDelete (symMap ns ns) t = (ns.filter fun n => n ∉ t.map (·.name)).map fun n => (n, n) := by
    rw [Props.LoadEdit.symDelete_eq, symMap_same ns hn, List.filter_map]
    congr 1
    apply List.filter_congr
    intro n _
    simp only [Function.comp_apply]
    rw [Bool.eq_iff_iff]
    simp only [List.all_eq_true, decide_eq_true_eq, List.mem_map, not_exists, not_and]
    exact ⟨fun h x hx e => h x hx e.symm, fun h x hx e => h x hx e.symm⟩
  rw [appendToLoad]
  rw [hd]
  by_cases he : (ns.filter fun n => n ∉ t.map (·.name)) = []
  · rw [he]
    exact ⟨[], .nil, by simp, by simp⟩
  · rw [if_neg (by rw [List.isEmpty_iff]; simpa using he)]
    have hp := hord ((ns.filter fun n => n ∉ t.map (·.name)).map fun n => (n, n))
    have same : ∀ q ∈ ord ((ns.filter fun n => n ∉ t.map (·.name)).map fun n => (n, n)), q.2 = q.1 := by
      intro q hq
      have := hp.mem_iff.1 hq
      obtain ⟨n, _, rfl⟩ := List.mem_map.1 this
      rfl
    refine ⟨(ord ((ns.filter fun n => n ∉ t.map (·.name)).map fun n => (n, n))).map (·.1), ?_, ?_, ?_⟩
    · have := hp.map (·.1)
      simpa [List.map_map, Function.comp_def] using this
    · dsimp only
      rw [List.map_map]
      congr 2
      exact List.map_congr_left fun q hq => by simp [same q hq]
    · simp only [true_iff]
      intro h
      rw [List.map_eq_nil_iff] at h
      rw [h] at hp
      have := hp.symm.eq_nil
      rw [List.map_eq_nil_iff] at this
      exact he this

theorem wanted_nodup {functions symbols root ns} (h : Wanted functions symbols root ns) : ns.Nodup :=
  h.1.imp fun hab e => by subst e; exact List.lt_irrefl _ hab

theorem find_split (p : Expr → Bool) (pre : List Expr) (x : Expr) (post : List Expr) (h1 : ∀ e ∈ pre, p e = false) (h2 : p x = true) :
    (pre ++ x :: post).findIdx? p = some pre.length := by
  rw [List.findIdx?_eq_some_iff_getElem]
  refine ⟨by simp, by simpa using h2, ?_⟩
  intro j hj
  have : j < pre.length := hj
  rw [List.getElem_append_left this, h1 _ (List.getElem_mem _)]
  simp

theorem set_mid (a : List Expr) (x : Expr) (b : List Expr) (y : Expr) (i : Nat) (h : i = a.length) : (a ++ x :: b).set i y = a ++ y :: b := by
  subst h
  induction a with
  | nil => rfl
  | cons z a ih => simp [ih]

/-- what happens to a file that has a load of the module -/
theorem fixed_existing (srt : List Bytes → List Bytes) (hs : Rewrite.Sorts strLess srt) (ord : SymMap → SymMap) (hord : ∀ m, (ord m).Perm m)
    (functions symbols : List Bytes) (module : Bytes) (c : Comments) (pre post : List Expr) (cl p m f t r fc) (hm : m.value = module)
    (hft : f.length = t.length) (hpre : ∀ e ∈ pre, ¬ Props.LoadEdit.LoadOf module e)
    (hroot : ∀ c' l, ¬ Inside (.file c (pre ++ .load cl p m f t r fc :: post)) (.file c' l))
    (hu : ∃ n b, Uses functions symbols (.file c (pre ++ .load cl p m f t r fc :: post)) n b) :
    ∃ ns new : List Bytes, Wanted functions symbols (.file c (pre ++ .load cl p m f t r fc :: post)) ns ∧
      new.Perm (ns.filter fun n => n ∉ t.map (·.name)) ∧
      fixed srt ord functions symbols module c (pre ++ .load cl p m f t r fc :: post) =
        pre.map (dropNatives functions) ++ .load cl p m (f ++ new.map fun n => { name := n }) (t ++ new.map fun n => { name := n }) r fc :: post.map (dropNatives functions) := by
  have hw := names_wanted srt hs functions symbols _ hroot
  obtain ⟨new, h1, h2, h3⟩ := append_same ord hord _ (wanted_nodup hw) cl p m f t r fc
  refine ⟨_, new, hw, h1, ?_⟩
  have hne : ¬ (findings functions symbols (.file c (pre ++ .load cl p m f t r fc :: post))).isEmpty = true := by
    rw [findings_nil hroot]
    intro h
    obtain ⟨n, b, hu⟩ := hu
    exact h n b hu
  have hl : dropNatives functions (.load cl p m f t r fc) = .load cl p m f t r fc := by
    rw [drop_other (notNative_of (by intros; exact nofun))]
    exact insideOnly_load functions cl p m f t r fc hft
  have hi : NotLoaded.insertLoad ord (pre ++ .load cl p m f t r fc :: post) module (names srt (findings functions symbols (.file c (pre ++ .load cl p m f t r fc :: post)))) =
      (pre ++ .load cl p m f t r fc :: post, false,
        if (appendToLoad ord (names srt (findings functions symbols (.file c (pre ++ .load cl p m f t r fc :: post))))
          (names srt (findings functions symbols (.file c (pre ++ .load cl p m f t r fc :: post)))) (.load cl p m f t r fc)).2 = true then
          some (pre.length, (appendToLoad ord (names srt (findings functions symbols (.file c (pre ++ .load cl p m f t r fc :: post))))
          (names srt (findings functions symbols (.file c (pre ++ .load cl p m f t r fc :: post)))) (.load cl p m f t r fc)).1) else none) := by
    unfold NotLoaded.insertLoad
    rw [find_split (loadsFrom module) pre (.load cl p m f t r fc) post
      (fun e he => by
        rw [Bool.eq_false_iff]
        intro h
        exact hpre e he ((Props.LoadEdit.loadsFrom_iff _ _).1 h))
      ((Props.LoadEdit.loadsFrom_iff _ _).2 (.mk _ _ _ _ _ _ _ hm))]
    dsimp only
    rw [List.getElem?_append_right (Nat.le_refl _)]
    simp only [Nat.sub_self, List.getElem?_cons_zero]
  unfold fixed
  dsimp only
  rw [if_neg hne, hi, h2]
  dsimp only
  rw [if_neg (show ¬ (false = true) by simp)]
  by_cases hn : new = []
  · rw [if_neg (by rw [h3]; simp [hn])]
    subst hn
    simp only [List.map_append, List.map_cons, hl, List.map_nil, List.append_nil]
  · rw [if_pos (h3.2 hn)]
    simp only [List.map_append, List.map_cons]
    rw [set_mid _ _ _ _ _ (by simp)]

/-- **C81**: in a file that has a load of the module, the first one gets the names it does not have yet, in any order; calls `native.f` are rewritten, and nothing
else changes. -/
theorem C81_existing_load (srt : List Bytes → List Bytes) (hs : Rewrite.Sorts strLess srt) (ord : SymMap → SymMap) (hord : ∀ m, (ord m).Perm m)
    (functions symbols : List Bytes) (module : Bytes) (c : Comments) (pre post : List Expr) (cl p m f t r fc) (hm : m.value = module)
    (hft : f.length = t.length) (hpre : ∀ e ∈ pre, ¬ Props.LoadEdit.LoadOf module e)
    (hroot : ∀ c' l, ¬ Inside (.file c (pre ++ .load cl p m f t r fc :: post)) (.file c' l))
    (hu : ∃ n b, Uses functions symbols (.file c (pre ++ .load cl p m f t r fc :: post)) n b) :
    ∃ (ns new : List Bytes) (pre' post' : List Expr), Wanted functions symbols (.file c (pre ++ .load cl p m f t r fc :: post)) ns ∧
      new.Perm (ns.filter fun n => n ∉ t.map (·.name)) ∧ Forall2 (Unnative functions) pre pre' ∧ Forall2 (Unnative functions) post post' ∧
      fixed srt ord functions symbols module c (pre ++ .load cl p m f t r fc :: post) =
        pre' ++ .load cl p m (f ++ new.map fun n => { name := n }) (t ++ new.map fun n => { name := n }) r fc :: post' := by
  obtain ⟨ns, new, h1, h2, h3⟩ := fixed_existing srt hs ord hord functions symbols module c pre post cl p m f t r fc hm hft hpre hroot hu
  exact ⟨ns, new, _, _, h1, h2, forall2_mapSelf _ (fun x _ => C81_rewriting _ x), forall2_mapSelf _ (fun x _ => C81_rewriting _ x), h3⟩

theorem isCode_iff (e : Expr) : isCode e = false ↔ Prelude e := by
  unfold isCode Prelude
  split
  · exact ⟨fun _ => .inl ⟨_, _, rfl⟩, fun _ => rfl⟩
  · exact ⟨fun _ => .inr ⟨_, rfl⟩, fun _ => rfl⟩
  · rename_i h1 h2
    refine ⟨(by intro h; cases h), ?_⟩
    rintro (⟨_, _, rfl⟩ | ⟨_, rfl⟩)
    · exact absurd rfl (h1 _ _)
    · exact absurd rfl (h2 _)

theorem find_first (p : Expr → Bool) : ∀ l : List Expr, (∃ e ∈ l, p e = true) → ∃ pre x post, l = pre ++ x :: post ∧ (∀ e ∈ pre, p e = false) ∧ p x = true
  | [], h => by obtain ⟨_, h, _⟩ := h; cases h
  | y :: l, h => by
    by_cases hy : p y = true
    · exact ⟨[], y, l, rfl, nofun, hy⟩
    · obtain ⟨e, he, hp⟩ := h
      rcases List.mem_cons.1 he with rfl | he
      · exact absurd hp hy
      · obtain ⟨pre, x, post, rfl, h1, h2⟩ := find_first p l ⟨e, he, hp⟩
        refine ⟨y :: pre, x, post, rfl, ?_, h2⟩
        intro z hz
        rcases List.mem_cons.1 hz with rfl | hz
        · simpa using hy
        · exact h1 z hz

theorem prelude_alone {e x : Expr} {stk : List Expr} (h : Prelude e) (ha : Ancestors e stk x) : x = e := by
  rcases ancestors_top ha with ⟨_, rfl⟩ | ⟨z, _, hz, _⟩
  · rfl
  · rcases h with ⟨_, _, rfl⟩ | ⟨_, rfl⟩ <;> cases hz

/-- a file that uses one of the names has a statement that is neither comment nor string -/
theorem uses_code {functions symbols c stmts n b} (h : Uses functions symbols (.file c stmts) n b) : ∃ e ∈ stmts, isCode e = true := by
  have key : ∀ stk x, Ancestors (.file c stmts) stk x → (∀ c l, x ≠ .file c l) → ¬ Prelude x → ∃ e ∈ stmts, isCode e = true := by
    intro stk x ha h1 h2
    rcases ancestors_top ha with ⟨_, rfl⟩ | ⟨z, stk', hz, _, ha'⟩
    · exact absurd rfl (h1 _ _)
    · refine ⟨z, hz, ?_⟩
      cases hc : isCode z with
      | true => rfl
      | false =>
        have hp := (isCode_iff z).1 hc
        rw [prelude_alone hp ha'] at h2
        exact absurd hp h2
  cases h with
  | call stk c i p l t a b ha _ _ => exact key _ _ ha nofun (by rintro (⟨_, _, h⟩ | ⟨_, h⟩) <;> cases h)
  | native stk x n ha hn =>
    refine key _ _ ha ?_ ?_
    · cases hn; exact nofun
    · cases hn; rintro (⟨_, _, h⟩ | ⟨_, h⟩) <;> cases h
  | symbol stk i ha _ _ => exact key _ _ ha nofun (by rintro (⟨_, _, h⟩ | ⟨_, h⟩) <;> cases h)

theorem inside_prelude {F : List Bytes} {e : Expr} (h : Prelude e) : insideOnly F e = e := by
  rcases h with ⟨_, _, rfl⟩ | ⟨_, rfl⟩ <;> rfl

/-- what happens to a file without a load of the module -/
theorem fixed_new (srt : List Bytes → List Bytes) (hs : Rewrite.Sorts strLess srt) (ord : SymMap → SymMap)
    (functions symbols : List Bytes) (module : Bytes) (c : Comments) (stmts : List Expr) (hno : ∀ e ∈ stmts, ¬ Props.LoadEdit.LoadOf module e)
    (hroot : ∀ c' l, ¬ Inside (.file c stmts) (.file c' l)) (hu : ∃ n b, Uses functions symbols (.file c stmts) n b) :
    ∃ ns pre s post, Wanted functions symbols (.file c stmts) ns ∧ stmts = pre ++ s :: post ∧ (∀ e ∈ pre, Prelude e) ∧ ¬ Prelude s ∧
      fixed srt ord functions symbols module c stmts =
        pre ++ newLoad module ns ns :: insideOnly functions s :: post.map (insideOnly functions) := by
  obtain ⟨n, b, hu⟩ := hu
  obtain ⟨pre, s, post, rfl, h1, h2⟩ := find_first isCode stmts (uses_code hu)
  have hw := names_wanted srt hs functions symbols _ hroot
  refine ⟨_, pre, s, post, hw, rfl, fun e he => (isCode_iff e).1 (h1 e he), ?_, ?_⟩
  · intro h
    rw [(isCode_iff s).2 h] at h2
    cases h2
  have hne : ¬ (findings functions symbols (.file c (pre ++ s :: post))).isEmpty = true := by
    rw [findings_nil hroot]
    intro h
    exact h n b hu
  have hpl : place (pre ++ s :: post) = pre.length := by
    unfold place
    rw [find_split isCode pre s post h1 h2]
  have hnl : (pre ++ s :: post).findIdx? (loadsFrom module) = none := by
    rw [List.findIdx?_eq_none_iff]
    intro e he
    rw [Bool.eq_false_iff]
    intro h
    exact hno e he ((Props.LoadEdit.loadsFrom_iff _ _).1 h)
  unfold fixed NotLoaded.insertLoad
  dsimp only
  rw [if_neg hne, hnl]
  dsimp only
  rw [hpl, if_pos rfl]
  simp only [List.take_left, List.drop_left, List.map_append, List.map_cons, List.map_nil]
  rw [show pre.map (insideOnly functions) = pre from
    (List.map_congr_left (g := id) fun e he => inside_prelude ((isCode_iff e).1 (h1 e he))).trans (List.map_id _)]
  rw [List.append_assoc]
  exact set_mid _ _ _ _ _ rfl

/-- `s'` is `s` with the native calls inside it rewritten, but not `s` itself -/
def RewrittenBelow (functions : List Bytes) (s s' : Expr) : Prop := ∃ ks, Forall2 (Unnative functions) (slots s) ks ∧ s' = withSlots s ks

theorem below_inside (F : List Bytes) (s : Expr) : RewrittenBelow F s (insideOnly F s) :=
  ⟨_, forall2_mapSelf _ fun x _ => C81_rewriting F x, rfl⟩

/-- **C81**: in a file without a load of the module, a new load of exactly the used names, in order, is put before the first statement that is neither a comment
nor a string. The statements are otherwise kept, with the native calls inside them rewritten. -/
theorem C81_new_load (srt : List Bytes → List Bytes) (hs : Rewrite.Sorts strLess srt) (ord : SymMap → SymMap)
    (functions symbols : List Bytes) (module : Bytes) (c : Comments) (stmts : List Expr) (hno : ∀ e ∈ stmts, ¬ Props.LoadEdit.LoadOf module e)
    (hroot : ∀ c' l, ¬ Inside (.file c stmts) (.file c' l)) (hu : ∃ n b, Uses functions symbols (.file c stmts) n b) :
    ∃ ns pre s post s' post', Wanted functions symbols (.file c stmts) ns ∧ stmts = pre ++ s :: post ∧ (∀ e ∈ pre, Prelude e) ∧ ¬ Prelude s ∧
      RewrittenBelow functions s s' ∧ Forall2 (RewrittenBelow functions) post post' ∧
      fixed srt ord functions symbols module c stmts =
        pre ++ .load {} {} { value := module } (ns.map fun n => { name := n }) (ns.map fun n => { name := n }) {} true :: s' :: post' := by
  obtain ⟨ns, pre, s, post, h1, h2, h3, h4, h5⟩ := fixed_new srt hs ord functions symbols module c stmts hno hroot hu
  exact ⟨ns, pre, s, post, _, _, h1, h2, h3, h4, below_inside _ _, forall2_mapSelf _ (fun x _ => below_inside _ x), h5⟩

/-! ## Afterwards -/

theorem drop_same {F : List Bytes} {v : Expr} (h : ∀ c x p l t a b, v ≠ .call c x p l t a b) : dropNatives F v = insideOnly F v :=
  drop_other (notNative_of h)

theorem lval_drop (F : List Bytes) {e : Expr} {n : Bytes} (h : LVal e n) : LVal (dropNatives F e) n := by
  induction h with
  | ident i => rw [drop_ident]; exact .ident i
  | tuple c nb s l e fc fm x n hx _ ih => rw [drop_same (by intros; exact nofun)]; exact .tuple _ _ _ _ _ _ _ _ n (List.mem_map_of_mem hx) ih
  | list c s l e fm x n hx _ ih => rw [drop_same (by intros; exact nofun)]; exact .list _ _ _ _ _ _ n (List.mem_map_of_mem hx) ih

theorem drop_call (F : List Bytes) (c x p l t a b) : ∃ y, dropNatives F (.call c x p l t a b) = .call c y p (l.map (dropNatives F)) t a b := by
  rw [dropNatives_eq, insideOnly_call]
  unfold dropNative
  split
  · rename_i h
    injection h with h1 h2 h3 h4 h5 h6 h7
    subst h1 h3 h4 h5 h6 h7
    split
    · exact ⟨_, rfl⟩
    · exact ⟨_, rfl⟩
  · exact ⟨_, rfl⟩

theorem paramName_drop (F : List Bytes) (x : Expr) : paramName (dropNatives F x) = paramName x := by
  induction x using paramName.induct with
  | case1 i => rw [drop_ident]
  | case2 c i t => rw [drop_same (by intros; exact nofun)]; rfl
  | case3 c lhs p o lb r ih =>
    rw [drop_same (by intros; exact nofun)]
    simp only [insideOnly, slots, List.map_cons, List.map_nil, withSlots, paramName]
    exact ih
  | case4 c p o x ih =>
    rw [drop_same (by intros; exact nofun)]
    simp only [insideOnly, slots, List.map_cons, List.map_nil, withSlots, paramName]
    exact ih
  | case5 x h1 h2 h3 h4 =>
    cases x with
    | ident i => exact absurd rfl (h1 _)
    | typedIdent c i t => exact absurd rfl (h2 _ _ _)
    | assign c l p o lb r => exact absurd rfl (h3 _ _ _ _ _ _)
    | unary c p o x => exact absurd rfl (h4 _ _ _ _)
    | call c x p l t a b => obtain ⟨y, h⟩ := drop_call F c x p l t a b; rw [h]; rfl
    | _ => rw [drop_same (by intros; exact nofun)]; unfold insideOnly; simp [slots, withSlots, paramName]

theorem local_drop (F : List Bytes) {s : Expr} {n : Bytes} {d : Expr} (h : LocalOf s n d) : ∃ d', LocalOf (dropNatives F s) n d' := by
  induction h with
  | assign c lhs p op lb rhs n hl => rw [drop_same (by intros; exact nofun)]; exact ⟨_, .assign _ _ _ _ _ _ n (lval_drop F hl)⟩
  | forVar c p v x b n hl => rw [drop_same (by intros; exact nofun)]; exact ⟨_, .forVar _ _ _ _ _ n (lval_drop F hl)⟩
  | forBody c p v x b s n d hs _ ih =>
    obtain ⟨d', ih⟩ := ih
    rw [drop_same (by intros; exact nofun)]
    exact ⟨d', .forBody _ _ _ _ _ _ n d' (List.mem_map_of_mem hs) ih⟩
  | ifTrue c p cd t e f s n d hs _ ih =>
    obtain ⟨d', ih⟩ := ih
    rw [drop_same (by intros; exact nofun)]
    refine ⟨d', ?_⟩
    simp only [insideOnly, slots, List.map_cons, List.map_append, withSlots]
    rw [List.take_left' (by simp), List.drop_left' (by simp)]
    exact .ifTrue _ _ _ _ _ _ _ n d' (List.mem_map_of_mem hs) ih
  | ifFalse c p cd t e f s n d hs _ ih =>
    obtain ⟨d', ih⟩ := ih
    rw [drop_same (by intros; exact nofun)]
    refine ⟨d', ?_⟩
    simp only [insideOnly, slots, List.map_cons, List.map_append, withSlots]
    rw [List.take_left' (by simp), List.drop_left' (by simp)]
    exact .ifFalse _ _ _ _ _ _ _ n d' (List.mem_map_of_mem hs) ih

/-- scopes bind the same names -/
theorem binds_drop (F : List Bytes) {w : Expr} (hf : ∀ c l, w ≠ .file c l) {n k d} (h : Binds w n k d) : ∃ k d, Binds (dropNatives F w) n k d := by
  cases w with
  | file c l => exact absurd rfl (hf c l)
  | defS c p m ps b cp fc fm t =>
    have hd : dropNatives F (.defS c p m ps b cp fc fm t) = .defS c p m (ps.map (dropNatives F)) (b.map (dropNatives F)) cp fc fm t := by
      rw [drop_same (by intros; exact nofun)]
      simp only [insideOnly, slots, List.map_append, withSlots]
      rw [List.take_left' (by simp), List.drop_left' (by simp)]
    rw [hd]
    rcases binds_def.1 h with ⟨x, hx, rfl, _⟩ | ⟨_, s, hs, hl⟩
    · exact ⟨_, _, binds_def.2 (.inl ⟨_, List.mem_map_of_mem hx, (paramName_drop F x).symm, rfl, rfl⟩)⟩
    · obtain ⟨d', hl⟩ := local_drop F hl
      exact ⟨_, _, binds_def.2 (.inr ⟨rfl, _, List.mem_map_of_mem hs, hl⟩)⟩
  | compr c cu lb b cl fm e =>
    cases h with
    | compr _ _ _ _ _ _ _ c' f' v' i' x' _ hm hn =>
      rw [drop_same (by intros; exact nofun)]
      have := List.mem_map_of_mem (f := dropNatives F) hm
      rw [drop_same (by intros; exact nofun)] at this
      exact ⟨_, _, .compr _ _ _ _ _ _ _ _ _ _ _ _ n this (lval_drop F hn)⟩
  | _ => cases h

/-- a statement of the file binds the same names -/
theorem global_drop (F : List Bytes) {s : Expr} (hs : lenOk s) {n k d} (h : GlobalOf s n k d) : ∃ k d, GlobalOf (dropNatives F s) n k d := by
  cases h with
  | load _ _ c' lp m fr to_ r fc i hm hi =>
    cases List.mem_singleton.1 hm
    have : dropNatives F (.load c' lp m fr to_ r fc) = .load c' lp m fr to_ r fc := by
      rw [drop_same (by intros; exact nofun)]; exact insideOnly_load F _ _ _ _ _ _ _ hs
    rw [this]
    exact ⟨_, _, .load {} [_] c' lp m fr to_ r fc i (List.mem_singleton.2 rfl) hi⟩
  | global _ _ c' lhs p op lb rhs n hm hl =>
    cases List.mem_singleton.1 hm
    rw [drop_same (by intros; exact nofun)]
    exact ⟨_, _, .global {} [_] c' (dropNatives F lhs) p op lb (dropNatives F rhs) n (List.mem_singleton.2 rfl) (lval_drop F hl)⟩
  | function _ _ c' p n ps b cp fc fm t hm =>
    cases List.mem_singleton.1 hm
    rw [drop_same (by intros; exact nofun)]
    exact ⟨_, _, .function _ _ c' p n (ps.map (dropNatives F)) (b.map (dropNatives F)) cp fc fm t (by
      simp only [insideOnly, slots, List.map_append, withSlots]
      rw [List.take_left' (by simp), List.drop_left' (by simp)]
      simp)⟩

/-- a node of the rewritten tree comes from a node of the tree, or is the name of a native call -/
theorem ancestors_drop (F : List Bytes) (v : Expr) : treeOk v → ∀ stk x, Ancestors (dropNatives F v) stk x →
    (∃ stk0 x0, Ancestors v stk0 x0 ∧ stk = stk0.map (dropNatives F) ∧ x = dropNatives F x0) ∨
    (∃ n stk0 x0, x = .ident { name := n } ∧ Ancestors v stk0 x0 ∧ NativeCall F n x0) := by
  refine slot_induction (P := fun v => treeOk v → ∀ stk x, Ancestors (dropNatives F v) stk x →
    (∃ stk0 x0, Ancestors v stk0 x0 ∧ stk = stk0.map (dropNatives F) ∧ x = dropNatives F x0) ∨
    (∃ n stk0 x0, x = .ident { name := n } ∧ Ancestors v stk0 x0 ∧ NativeCall F n x0)) ?_ v
  intro v ih hok stk x ha
  rw [treeOk_iff] at hok
  have down : ∀ y ∈ slots v, ∀ stk', Ancestors (dropNatives F y) stk' x → stk = dropNatives F v :: stk' →
      (∃ stk0 x0, Ancestors v stk0 x0 ∧ stk = stk0.map (dropNatives F) ∧ x = dropNatives F x0) ∨
      (∃ n stk0 x0, x = .ident { name := n } ∧ Ancestors v stk0 x0 ∧ NativeCall F n x0) := by
    intro y hy stk' hz2 hst
    rcases ih y hy (hok.2 y hy) _ _ hz2 with ⟨s0, x0, h1, h2, h3⟩ | ⟨n, s0, x0, h1, h2, h3⟩
    · exact .inl ⟨v :: s0, x0, ancestors_cons hy h1, by rw [hst, h2]; rfl, h3⟩
    · exact .inr ⟨n, v :: s0, x0, h1, ancestors_cons hy h2, h3⟩
  rcases ancestors_top ha with ⟨rfl, rfl⟩ | ⟨z, stk', hz, hst, hz2⟩
  · exact .inl ⟨[], v, .root, rfl, rfl⟩
  · rcases native_dec F v with ⟨m, hm⟩ | hm
    · cases hm with
      | mk c c' ci pi d q p l t a b h =>
        rw [drop_native F h] at hz
        simp only [slots, List.mem_cons, List.mem_map] at hz
        rcases hz with rfl | ⟨y, hy, rfl⟩
        · rcases ancestors_top hz2 with ⟨_, rfl⟩ | ⟨_, _, h, _⟩
          · exact .inr ⟨m, [], _, rfl, .root, .mk _ _ _ _ _ _ _ _ _ _ _ h⟩
          · cases h
        · exact down y (by simp [slots, hy]) stk' hz2 hst
    · rw [drop_other hm, slots_inside F hok.1, List.mem_map] at hz
      obtain ⟨y, hy, rfl⟩ := hz
      exact down y hy stk' hz2 hst

theorem drop_ident_inv {F : List Bytes} {x : Expr} {i : IdentN} (h : dropNatives F x = .ident i) : x = .ident i := by
  cases x with
  | ident j => rw [drop_ident] at h; exact h
  | call c x p l t a b => obtain ⟨y, hy⟩ := drop_call F c x p l t a b; rw [hy] at h; cases h
  | _ => rw [drop_same (by intros; exact nofun)] at h; unfold insideOnly at h; simp [slots, withSlots] at h

theorem drop_call_inv {F : List Bytes} {x : Expr} {c i p l t a b} (h : dropNatives F x = .call c (.ident i) p l t a b) :
    (∃ l0, x = .call c (.ident i) p l0 t a b) ∨ NativeCall F i.name x := by
  rcases native_dec F x with ⟨m, hm⟩ | hm
  · cases hm with
    | mk c c' ci pi d q p l t a b hn =>
      rw [drop_native F hn] at h
      injection h with _ h
      injection h with h
      subst h
      exact .inr (.mk _ _ _ _ _ _ _ _ _ _ _ hn)
  · cases x with
    | call c2 x p2 l2 t2 a2 b2 =>
      rw [drop_other hm] at h
      simp only [slots, List.map_cons, withSlots] at h
      injection h with h1 h2 h3 h4 h5 h6 h7
      have := drop_ident_inv h2
      subst h1 this h3 h5 h6 h7
      exact .inl ⟨_, rfl⟩
    | _ => rw [drop_same (by intros; exact nofun)] at h; unfold insideOnly at h; simp [slots, withSlots] at h

theorem ancestors_mem {root : Expr} {stk : List Expr} {x : Expr} (h : Ancestors root stk x) : ∀ w ∈ stk, ∃ stk', Ancestors root stk' w := by
  induction h with
  | root => intro w hw; cases hw
  | child stk v x hv _ ih =>
    intro w hw
    rcases List.mem_append.1 hw with hw | hw
    · exact ih w hw
    · exact ⟨stk, List.mem_singleton.1 hw ▸ hv⟩

theorem anc_stmt {c : Comments} {stmts : List Expr} {s : Expr} (hs : s ∈ stmts) {stk x} (h : Ancestors s stk x) : Ancestors (.file c stmts) (.file c stmts :: stk) x :=
  ancestors_cons (by simpa [slots] using hs) h

/-- unbound in the rewritten file, so unbound in the file -/
theorem unbound_back {F : List Bytes} {c : Comments} {stmts out : List Expr} (hroot : ∀ c' l, ¬ Inside (.file c stmts) (.file c' l))
    (hc : ∀ n k d, Binds (.file c stmts) n k d → ∃ k d, Binds (.file c out) n k d) {s : Expr} (hs : s ∈ stmts) {stk0 x0} (ha : Ancestors s stk0 x0) {n : Bytes}
    (h : Unbound (.file c out :: stk0.map (dropNatives F)) n) : Unbound (.file c stmts :: stk0) n := by
  intro w hw k d hb
  rcases List.mem_cons.1 hw with rfl | hw
  · obtain ⟨k', d', hb'⟩ := hc n k d hb
    exact h _ (by simp) _ _ hb'
  · obtain ⟨stk', hw'⟩ := ancestors_mem ha w hw
    have hin : Inside (.file c stmts) w := ancestors_inside (anc_stmt hs hw') (by simp)
    obtain ⟨k', d', hb'⟩ := binds_drop F (w := w) (fun c' l e => hroot c' l (e ▸ hin)) hb
    exact h _ (List.mem_cons_of_mem _ (List.mem_map_of_mem hw)) _ _ hb'

/-- a load that needs no loading itself -/
def LoadFine (S : List Bytes) (root root' : Expr) (L : Expr) : Prop :=
  ∃ c p m f t r fc, L = .load c p m f t r fc ∧ f.length = t.length ∧
    ∀ i, (i ∈ f ∨ i ∈ t) → i.name ∈ S → (∃ k d, Binds root' i.name k d) ∨ ∃ s, s ∈ slots root ∧ .ident i ∈ slots s ∧ ∀ n k d, ¬ Binds s n k d

theorem interleave_mem {f t : List IdentN} (h : f.length = t.length) (x : Expr) : x ∈ interleave f t ↔ ∃ i, (i ∈ f ∨ i ∈ t) ∧ x = .ident i := by
  induction f generalizing t with
  | nil => cases t with
    | nil => simp [interleave]
    | cons => cases h
  | cons a f ih => cases t with
    | nil => cases h
    | cons b t =>
      simp only [interleave, List.mem_cons]
      rw [ih (by simpa using h)]
      constructor
      · rintro (rfl | rfl | ⟨i, hi, rfl⟩)
        · exact ⟨a, .inl (.inl rfl), rfl⟩
        · exact ⟨b, .inr (.inl rfl), rfl⟩
        · exact ⟨i, hi.imp .inr .inr, rfl⟩
      · rintro ⟨i, (rfl | hi) | (rfl | hi), rfl⟩
        · exact .inl rfl
        · exact .inr (.inr ⟨i, .inl hi, rfl⟩)
        · exact .inr (.inl rfl)
        · exact .inr (.inr ⟨i, .inr hi, rfl⟩)

theorem load_inside {c p m f t r fc} (h : f.length = t.length) {stk x} (ha : Ancestors (.load c p m f t r fc) stk x) :
    x = .load c p m f t r fc ∨ (∃ s, x = .string s) ∨ ∃ i, (i ∈ f ∨ i ∈ t) ∧ x = .ident i := by
  rcases ancestors_top ha with ⟨_, rfl⟩ | ⟨z, _, hz, _, hx⟩
  · exact .inl rfl
  · simp only [slots, List.mem_cons] at hz
    rcases hz with rfl | hz
    · rcases ancestors_top hx with ⟨_, rfl⟩ | ⟨_, _, h, _⟩
      · exact .inr (.inl ⟨_, rfl⟩)
      · cases h
    · rw [interleave_mem h] at hz
      obtain ⟨i, hi, rfl⟩ := hz
      rcases ancestors_top hx with ⟨_, rfl⟩ | ⟨_, _, h, _⟩
      · exact .inr (.inr ⟨i, hi, rfl⟩)
      · cases h

theorem nothing_left {F S : List Bytes} {c : Comments} {stmts out : List Expr} (hok : ∀ s ∈ stmts, treeOk s)
    (hroot : ∀ c' l, ¬ Inside (.file c stmts) (.file c' l))
    (ho : ∀ e ∈ out, (∃ s ∈ stmts, e = dropNatives F s) ∨ LoadFine S (.file c stmts) (.file c out) e)
    (hu : ∀ n b, Uses F S (.file c stmts) n b → ∃ k d, Binds (.file c out) n k d)
    (hc : ∀ n k d, Binds (.file c stmts) n k d → ∃ k d, Binds (.file c out) n k d) : ∀ n b, ¬ Uses F S (.file c out) n b := by
  intro n b h
  cases h with
  | native stk x n ha hn =>
    rcases ancestors_top ha with ⟨_, rfl⟩ | ⟨z, stk', hz, rfl, hx⟩
    · cases hn
    · rcases ho z hz with ⟨s, hs, rfl⟩ | ⟨_, _, _, _, _, _, _, rfl, hl, _⟩
      · exact drop_complete F s (hok s hs) _ _ _ hx hn
      · rcases load_inside hl hx with rfl | ⟨_, rfl⟩ | ⟨_, _, rfl⟩ <;> cases hn
  | call stk c' i p l t a b ha hf hun =>
    rcases ancestors_top ha with ⟨_, h⟩ | ⟨z, stk', hz, rfl, hx⟩
    · cases h
    · rcases ho z hz with ⟨s, hs, rfl⟩ | ⟨_, _, _, _, _, _, _, rfl, hl, _⟩
      · rcases ancestors_drop F s (hok s hs) _ _ hx with ⟨stk0, x0, h1, rfl, h3⟩ | ⟨_, _, _, h, _⟩
        · have hus : ∃ b, Uses F S (.file c stmts) i.name b := by
            rcases drop_call_inv h3.symm with ⟨l0, rfl⟩ | hn
            · exact ⟨_, .call _ _ _ _ _ _ _ _ (anc_stmt hs h1) hf (unbound_back hroot hc hs h1 hun)⟩
            · exact ⟨_, .native _ _ _ (anc_stmt hs h1) hn⟩
          obtain ⟨b, hus⟩ := hus
          obtain ⟨k, d, hb⟩ := hu _ _ hus
          exact hun _ (by simp) _ _ hb
        · cases h
      · rcases load_inside hl hx with h | ⟨_, h⟩ | ⟨_, _, h⟩ <;> cases h
  | symbol stk i ha hf hun =>
    rcases ancestors_top ha with ⟨_, h⟩ | ⟨z, stk', hz, rfl, hx⟩
    · cases h
    · rcases ho z hz with ⟨s, hs, rfl⟩ | ⟨_, _, _, _, _, _, _, rfl, hl, hfine⟩
      · have hus : ∃ b, Uses F S (.file c stmts) i.name b := by
          rcases ancestors_drop F s (hok s hs) _ _ hx with ⟨stk0, x0, h1, rfl, h3⟩ | ⟨m, stk0, x0, h, h1, hn⟩
          · rw [drop_ident_inv h3.symm] at h1
            exact ⟨_, .symbol _ _ (anc_stmt hs h1) hf (unbound_back hroot hc hs h1 hun)⟩
          · injection h with h
            subst h
            exact ⟨_, .native _ _ _ (anc_stmt hs h1) hn⟩
        obtain ⟨b, hus⟩ := hus
        obtain ⟨k, d, hb⟩ := hu _ _ hus
        exact hun _ (by simp) _ _ hb
      · rcases load_inside hl hx with h | ⟨_, h⟩ | ⟨j, hj, h⟩
        · cases h
        · cases h
        · injection h with h
          subst h
          rcases hfine i hj hf with ⟨k, d, hb⟩ | ⟨s, hs, hi, hnb⟩
          · exact hun _ (by simp) _ _ hb
          · have hs' : s ∈ stmts := by simpa [slots] using hs
            have : Uses F S (.file c stmts) i.name false := by
              refine .symbol (.file c stmts :: [s]) i (anc_stmt hs' (ancestors_cons hi .root)) hf ?_
              intro w hw k d hb
              rcases List.mem_cons.1 hw with rfl | hw
              · obtain ⟨_, _, hb'⟩ := hc _ _ _ hb
                exact hun _ (by simp) _ _ hb'
              · rw [List.mem_singleton.1 hw] at hb
                exact hnb _ _ _ hb
            obtain ⟨k, d, hb⟩ := hu _ _ this
            exact hun _ (by simp) _ _ hb

theorem drop_load (F : List Bytes) (c p m f t r fc) (h : f.length = t.length) : dropNatives F (.load c p m f t r fc) = .load c p m f t r fc := by
  rw [drop_same (by intros; exact nofun)]
  exact insideOnly_load F _ _ _ _ _ _ _ h

theorem stmts_ok {c : Comments} {stmts : List Expr} (h : treeOk (.file c stmts)) : ∀ s ∈ stmts, treeOk s := by
  rw [treeOk_iff] at h
  intro s hs
  exact h.2 s (by simpa [slots] using hs)

/-- **C81**: after the fix, a file that had a load of the module uses none of the names as a global any more. -/
theorem C81_again_existing (srt : List Bytes → List Bytes) (hs : Rewrite.Sorts strLess srt) (ord : SymMap → SymMap) (hord : ∀ m, (ord m).Perm m)
    (functions symbols : List Bytes) (module : Bytes) (c : Comments) (stmts : List Expr) (hload : ∃ e ∈ stmts, Props.LoadEdit.LoadOf module e)
    (hok : treeOk (.file c stmts)) (hroot : ∀ c' l, ¬ Inside (.file c stmts) (.file c' l)) :
    ∀ n b, ¬ Uses functions symbols (.file c (fixed srt ord functions symbols module c stmts)) n b := by
  by_cases hu : ∃ n b, Uses functions symbols (.file c stmts) n b
  case neg =>
    have hu' : ∀ n b, ¬ Uses functions symbols (.file c stmts) n b := fun n b h => hu ⟨n, b, h⟩
    rw [C81_unchanged srt ord functions symbols module c stmts hroot hu']
    exact hu'
  obtain ⟨pre, L, post, rfl, h1, h2⟩ := find_first (loadsFrom module) stmts (by
    obtain ⟨e, he, hl⟩ := hload
    exact ⟨e, he, (Props.LoadEdit.loadsFrom_iff _ _).2 hl⟩)
  have hsok := stmts_ok hok
  obtain ⟨cl, p, m, f, t, r, fc, rfl, hm⟩ : ∃ cl p m f t r fc, L = .load cl p m f t r fc ∧ m.value = module := by
    cases (Props.LoadEdit.loadsFrom_iff _ _).1 h2 with
    | mk => exact ⟨_, _, _, _, _, _, _, rfl, by first | rfl | assumption⟩
  have hft : f.length = t.length := by
    have := hsok (.load cl p m f t r fc) (by simp)
    rw [treeOk_iff] at this
    exact this.1
  obtain ⟨ns, new, hw, hnew, hfix⟩ := fixed_existing srt hs ord hord functions symbols module c pre post cl p m f t r fc hm hft
    (fun e he hl => by have := h1 e he; rw [(Props.LoadEdit.loadsFrom_iff _ _).2 hl] at this; cases this) hroot hu
  rw [hfix]
  have hbw : ∀ n, n ∈ ns → ∃ k d, Binds (.file c (pre.map (dropNatives functions) ++ .load cl p m (f ++ new.map fun n => { name := n }) (t ++ new.map fun n => { name := n }) r fc :: post.map (dropNatives functions))) n k d := by
    intro n hn
    by_cases ht : n ∈ t.map (·.name)
    · obtain ⟨i, hi, rfl⟩ := List.mem_map.1 ht
      exact ⟨_, _, .load _ _ _ _ _ _ _ _ _ i (List.mem_append_right _ (List.mem_cons_self ..)) (List.mem_append_left _ hi)⟩
    · have : n ∈ new := hnew.mem_iff.2 (by simp only [List.mem_filter]; exact ⟨hn, by simpa using ht⟩)
      exact ⟨_, _, .load _ _ _ _ _ _ _ _ _ { name := n } (List.mem_append_right _ (List.mem_cons_self ..)) (List.mem_append_right _ (List.mem_map.2 ⟨n, this, rfl⟩))⟩
  refine nothing_left hsok hroot ?_ ?_ ?_
  · intro e he
    rcases List.mem_append.1 he with he | he
    · obtain ⟨s, hs', rfl⟩ := List.mem_map.1 he
      exact .inl ⟨s, by simp [hs'], rfl⟩
    rcases List.mem_cons.1 he with rfl | he
    · refine .inr ⟨_, _, _, _, _, _, _, rfl, by simp [hft], ?_⟩
      intro i hi hsym
      rw [List.mem_append, List.mem_append] at hi
      have hcase : (i ∈ f ∨ i ∈ t) ∨ i.name ∈ new := by
        rcases hi with (h | h) | (h | h)
        · exact .inl (.inl h)
        · obtain ⟨n, hn, rfl⟩ := List.mem_map.1 h; exact .inr hn
        · exact .inl (.inr h)
        · obtain ⟨n, hn, rfl⟩ := List.mem_map.1 h; exact .inr hn
      rcases hcase with h | h
      · refine .inr ⟨.load cl p m f t r fc, by simp [slots], ?_, ?_⟩
        · simp only [slots, List.mem_cons]
          exact .inr ((interleave_mem hft _).2 ⟨i, h, rfl⟩)
        · intro n k d hb; cases hb
      · exact .inl (hbw _ (List.mem_filter.1 (hnew.mem_iff.1 h)).1)
    · obtain ⟨s, hs', rfl⟩ := List.mem_map.1 he
      exact .inl ⟨s, by simp [hs'], rfl⟩
  · intro n b h
    exact hbw n ((hw.2 n).2 ⟨b, h⟩)
  · intro n k d hb
    obtain ⟨s, hs', hg⟩ := binds_file.1 hb
    rcases List.mem_append.1 hs' with h | h
    · have ho := hsok s hs'
      rw [treeOk_iff] at ho
      obtain ⟨k', d', hg'⟩ := global_drop functions ho.1 hg
      exact ⟨k', d', binds_file.2 ⟨_, List.mem_append_left _ (List.mem_map_of_mem h), hg'⟩⟩
    rcases List.mem_cons.1 h with rfl | h
    · cases hg with
      | load _ _ c' lp m' fr to_ r' fc' i hm' hi =>
        cases List.mem_singleton.1 hm'
        exact ⟨_, _, .load _ _ _ _ _ _ _ _ _ i (List.mem_append_right _ (List.mem_cons_self ..)) (List.mem_append_left _ hi)⟩
      | global _ _ _ _ _ _ _ _ _ hm' _ => cases List.mem_singleton.1 hm'
      | function _ _ _ _ _ _ _ _ _ _ _ hm' => cases List.mem_singleton.1 hm'
    · have ho := hsok s hs'
      rw [treeOk_iff] at ho
      obtain ⟨k', d', hg'⟩ := global_drop functions ho.1 hg
      exact ⟨k', d', binds_file.2 ⟨_, List.mem_append_right _ (List.mem_cons_of_mem _ (List.mem_map_of_mem h)), hg'⟩⟩

theorem drop_prelude {F : List Bytes} {e : Expr} (h : Prelude e) : dropNatives F e = e := by
  rcases h with ⟨_, _, rfl⟩ | ⟨_, rfl⟩ <;> rfl

/-- **C81**: the same for a file without a load of the module, provided that no statement of the file is itself a call `native.f(…)`. -/
theorem C81_again_new (srt : List Bytes → List Bytes) (hs : Rewrite.Sorts strLess srt) (ord : SymMap → SymMap)
    (functions symbols : List Bytes) (module : Bytes) (c : Comments) (stmts : List Expr) (hno : ∀ e ∈ stmts, ¬ Props.LoadEdit.LoadOf module e)
    (htop : ∀ e ∈ stmts, ∀ n, ¬ NativeCall functions n e)
    (hok : treeOk (.file c stmts)) (hroot : ∀ c' l, ¬ Inside (.file c stmts) (.file c' l)) :
    ∀ n b, ¬ Uses functions symbols (.file c (fixed srt ord functions symbols module c stmts)) n b := by
  by_cases hu : ∃ n b, Uses functions symbols (.file c stmts) n b
  case neg =>
    have hu' : ∀ n b, ¬ Uses functions symbols (.file c stmts) n b := fun n b h => hu ⟨n, b, h⟩
    rw [C81_unchanged srt ord functions symbols module c stmts hroot hu']
    exact hu'
  have hsok := stmts_ok hok
  obtain ⟨ns, pre, s, post, hw, rfl, hpre, _, hfix⟩ := fixed_new srt hs ord functions symbols module c stmts hno hroot hu
  have hin : ∀ e ∈ pre ++ s :: post, insideOnly functions e = dropNatives functions e := fun e he => (drop_other (htop e he)).symm
  have hout : fixed srt ord functions symbols module c (pre ++ s :: post) =
      pre.map (dropNatives functions) ++ newLoad module ns ns :: (s :: post).map (dropNatives functions) := by
    rw [hfix, hin s (by simp), List.map_congr_left (fun e he => hin e (by simp [he]))]
    rw [show pre.map (dropNatives functions) = pre from (List.map_congr_left (g := id) fun e he => drop_prelude (hpre e he)).trans (List.map_id _)]
    rfl
  rw [hout]
  have hbw : ∀ n, n ∈ ns → ∃ k d, Binds (.file c (pre.map (dropNatives functions) ++ newLoad module ns ns :: (s :: post).map (dropNatives functions))) n k d := by
    intro n hn
    exact ⟨_, _, .load c _ {} {} { value := module } (ns.map fun n => { name := n }) (ns.map fun n => { name := n }) {} true { name := n }
      (List.mem_append_right _ (List.mem_cons_self ..)) (List.mem_map.2 ⟨n, hn, rfl⟩)⟩
  refine nothing_left hsok hroot ?_ ?_ ?_
  · intro e he
    rcases List.mem_append.1 he with he | he
    · obtain ⟨s, hs', rfl⟩ := List.mem_map.1 he
      exact .inl ⟨s, by simp [hs'], rfl⟩
    rcases List.mem_cons.1 he with rfl | he
    · refine .inr ⟨_, _, _, _, _, _, _, rfl, rfl, ?_⟩
      intro i hi _
      have : i.name ∈ ns := by
        rcases hi with h | h <;> (obtain ⟨n, hn, rfl⟩ := List.mem_map.1 h; exact hn)
      exact .inl (hbw _ this)
    · obtain ⟨s', hs', rfl⟩ := List.mem_map.1 he
      exact .inl ⟨s', List.mem_append_right _ hs', rfl⟩
  · intro n b h
    exact hbw n ((hw.2 n).2 ⟨b, h⟩)
  · intro n k d hb
    obtain ⟨s', hs', hg⟩ := binds_file.1 hb
    have ho := hsok s' hs'
    rw [treeOk_iff] at ho
    obtain ⟨k', d', hg'⟩ := global_drop functions ho.1 hg
    rcases List.mem_append.1 hs' with h | h
    · exact ⟨k', d', binds_file.2 ⟨_, List.mem_append_left _ (List.mem_map_of_mem h), hg'⟩⟩
    · exact ⟨k', d', binds_file.2 ⟨_, List.mem_append_right _ (List.mem_cons_of_mem _ (List.mem_map_of_mem h)), hg'⟩⟩

/-- the statement loads the name, under that name, from the module -/
inductive Loads (module n : Bytes) : Expr → Prop
  | mk (c p m f t r fc a b) (ft : IdentN × IdentN) : m.value = module → f.zip t = a ++ ft :: b → ft.1.name = n → ft.2.name = n → Loads module n (.load c p m f t r fc)

/-- **C81**: in a file without a load of the module, every name used as a global is loaded from the module afterwards. -/
theorem C81_provided_new (srt : List Bytes → List Bytes) (hs : Rewrite.Sorts strLess srt) (ord : SymMap → SymMap)
    (functions symbols : List Bytes) (module : Bytes) (c : Comments) (stmts : List Expr) (hno : ∀ e ∈ stmts, ¬ Props.LoadEdit.LoadOf module e)
    (hroot : ∀ c' l, ¬ Inside (.file c stmts) (.file c' l)) (n : Bytes) (b : Bool) (h : Uses functions symbols (.file c stmts) n b) :
    ∃ e ∈ fixed srt ord functions symbols module c stmts, Loads module n e := by
  obtain ⟨ns, pre, s, post, s', post', hw, _, _, _, _, _, hfix⟩ := C81_new_load srt hs ord functions symbols module c stmts hno hroot ⟨n, b, h⟩
  refine ⟨_, hfix ▸ List.mem_append_right _ (List.mem_cons_self ..), ?_⟩
  obtain ⟨x, y, rfl⟩ := List.append_of_mem ((hw.2 n).2 ⟨b, h⟩)
  refine .mk _ _ _ _ _ _ _ (x.map fun n => ({ name := n }, { name := n })) (y.map fun n => ({ name := n }, { name := n })) ({ name := n }, { name := n }) rfl ?_ rfl rfl
  rw [List.zip_map', List.map_append, List.map_cons]

/-- **C81**: in a file with a load of the module, every name used as a global without any binding for it is loaded from the module afterwards. -/
theorem C81_provided_existing (srt : List Bytes → List Bytes) (hs : Rewrite.Sorts strLess srt) (ord : SymMap → SymMap) (hord : ∀ m, (ord m).Perm m)
    (functions symbols : List Bytes) (module : Bytes) (c : Comments) (stmts : List Expr) (hload : ∃ e ∈ stmts, Props.LoadEdit.LoadOf module e)
    (hok : treeOk (.file c stmts)) (hroot : ∀ c' l, ¬ Inside (.file c stmts) (.file c' l)) (n : Bytes) (h : Uses functions symbols (.file c stmts) n false) :
    ∃ e ∈ fixed srt ord functions symbols module c stmts, Loads module n e := by
  obtain ⟨pre, L, post, rfl, h1, h2⟩ := find_first (loadsFrom module) stmts (by
    obtain ⟨e, he, hl⟩ := hload
    exact ⟨e, he, (Props.LoadEdit.loadsFrom_iff _ _).2 hl⟩)
  have hsok := stmts_ok hok
  obtain ⟨cl, p, m, f, t, r, fc, rfl, hm⟩ : ∃ cl p m f t r fc, L = .load cl p m f t r fc ∧ m.value = module := by
    cases (Props.LoadEdit.loadsFrom_iff _ _).1 h2 with
    | mk => exact ⟨_, _, _, _, _, _, _, rfl, by first | rfl | assumption⟩
  have hft : f.length = t.length := by
    have := hsok (.load cl p m f t r fc) (by simp)
    rw [treeOk_iff] at this
    exact this.1
  obtain ⟨ns, new, hw, hnew, hfix⟩ := fixed_existing srt hs ord hord functions symbols module c pre post cl p m f t r fc hm hft
    (fun e he hl => by have := h1 e he; rw [(Props.LoadEdit.loadsFrom_iff _ _).2 hl] at this; cases this) hroot ⟨n, false, h⟩
  have hnt : n ∉ t.map (·.name) := by
    intro ht
    obtain ⟨i, hi, hin⟩ := List.mem_map.1 ht
    have hb : Binds (.file c (pre ++ .load cl p m f t r fc :: post)) n .imported (.ident i) :=
      hin ▸ .load _ _ _ _ _ _ _ _ _ i (List.mem_append_right _ (List.mem_cons_self ..)) hi
    have hun : ∀ stk x, Ancestors (.file c (pre ++ .load cl p m f t r fc :: post)) stk x → (∀ c l, x ≠ .file c l) → ¬ Unbound stk n := by
      intro stk x ha hx hun
      rcases ancestors_top ha with ⟨_, rfl⟩ | ⟨_, _, _, rfl, _⟩
      · exact hx _ _ rfl
      · exact hun _ (by simp) _ _ hb
    cases h with
    | call stk c i p l t a b ha _ hu => exact hun _ _ ha nofun hu
    | symbol stk i ha _ hu => exact hun _ _ ha nofun hu
  have hn : n ∈ new := hnew.mem_iff.2 (List.mem_filter.2 ⟨(hw.2 n).2 ⟨_, h⟩, by simpa using hnt⟩)
  refine ⟨_, hfix ▸ List.mem_append_right _ (List.mem_cons_self ..), ?_⟩
  obtain ⟨x, y, rfl⟩ := List.append_of_mem hn
  refine .mk _ _ _ _ _ _ _ (f.zip t ++ x.map fun n => ({ name := n }, { name := n })) (y.map fun n => ({ name := n }, { name := n })) ({ name := n }, { name := n }) hm ?_ rfl rfl
  rw [List.zip_append hft, List.zip_map', List.map_append, List.map_cons, List.append_assoc]

/-! ## Examples, and what the fix gets wrong -/

def exId (n : Bytes) : Expr := .ident { name := n }
def exCall (f : Expr) (l : List Expr) : Expr := .call {} f {} l {} false false
def exNative (f : Bytes) (l : List Expr) : Expr := exCall (.dot {} (exId b!"native") {} {} f) l
def exDef (n : Bytes) (body : List Expr) : Expr := .defS {} {} n [] body {} false false .nil
def exF : List Bytes := [b!"cc_library", b!"cc_binary"]

/-- `def m(): native.cc_library(cc_binary())` gets the load of both and becomes `cc_library(cc_binary())` -/
example : fixed id id exF [] b!"@c" {} [exDef b!"m" [exNative b!"cc_library" [exCall (exId b!"cc_binary") []]]] =
    [.load {} {} { value := b!"@c" } [{ name := b!"cc_library" }, { name := b!"cc_binary" }] [{ name := b!"cc_library" }, { name := b!"cc_binary" }] {} true,
     exDef b!"m" [exCall (exId b!"cc_library") [exCall (exId b!"cc_binary") []]]] := rfl

/-- the hypotheses of `C81_again_new` hold there -/
example : (∀ e ∈ [exDef b!"m" [exNative b!"cc_library" [exCall (exId b!"cc_binary") []]]], ∀ n, ¬ NativeCall exF n e) ∧
    ∃ n b, Uses exF [] (.file {} [exDef b!"m" [exNative b!"cc_library" [exCall (exId b!"cc_binary") []]]]) n b := by
  refine ⟨?_, b!"cc_library", true, ?_⟩
  · intro e he n h
    rw [List.mem_singleton.1 he] at h
    cases h
  · refine .native [.file {} [exDef b!"m" [exNative b!"cc_library" [exCall (exId b!"cc_binary") []]]], exDef b!"m" [exNative b!"cc_library" [exCall (exId b!"cc_binary") []]]] (exNative b!"cc_library" [exCall (exId b!"cc_binary") []]) _ ?_
      (.mk _ _ _ _ _ _ _ _ _ _ _ (by decide))
    exact anc_stmt (List.mem_singleton.2 rfl) (ancestors_cons (by simp [exDef, slots]) .root)

/-- `C81_again_new` needs its hypothesis: a statement `native.cc_library()` stays when a load is inserted, and is reported again. -/
theorem C81_top_level_witness :
    fixed id id exF [] b!"@c" {} [exNative b!"cc_library" []] =
      [.load {} {} { value := b!"@c" } [{ name := b!"cc_library" }] [{ name := b!"cc_library" }] {} true, exNative b!"cc_library" []] ∧
    findings exF [] (.file {} [.load {} {} { value := b!"@c" } [{ name := b!"cc_library" }] [{ name := b!"cc_library" }] {} true, exNative b!"cc_library" []]) =
      [⟨b!"cc_library", true⟩] ∧
    fixed id id exF [] b!"@c" {} [.load {} {} { value := b!"@c" } [{ name := b!"cc_library" }] [{ name := b!"cc_library" }] {} true, exNative b!"cc_library" []] =
      [.load {} {} { value := b!"@c" } [{ name := b!"cc_library" }] [{ name := b!"cc_library" }] {} true, exCall (exId b!"cc_library") []] :=
  ⟨rfl, rfl, rfl⟩

/-- A function that wraps a native rule under the same name calls itself after the fix, and its name is loaded as well. -/
theorem C81_capture_witness :
    fixed id id exF [] b!"@c" {} [exDef b!"cc_library" [exNative b!"cc_library" []]] =
      [.load {} {} { value := b!"@c" } [{ name := b!"cc_library" }] [{ name := b!"cc_library" }] {} true,
       exDef b!"cc_library" [exCall (exId b!"cc_library") []]] := rfl

/-- Names that are no uses are taken for uses: the keyword in `f(CcInfo = 1)`, and the symbol that `load("//:m.bzl", y = "CcInfo")` takes from another file. -/
theorem C81_false_positive_witness :
    findings [] [b!"CcInfo"] (.file {} [exCall (exId b!"f") [.assign {} (exId b!"CcInfo") {} b!"=" false (.literal {} {} b!"1")]]) = [⟨b!"CcInfo", false⟩] ∧
    findings [] [b!"CcInfo"] (.file {} [.load {} {} { value := b!"//:m.bzl" } [{ name := b!"CcInfo" }] [{ name := b!"y" }] {} true]) = [⟨b!"CcInfo", false⟩] :=
  ⟨rfl, rfl⟩

/-- `C81_provided_existing` is about names without a binding: a `native.cc_library()` call in a file that loads something else of the module under this name
becomes a call of the other function. -/
theorem C81_wrong_binding_witness :
    fixed id id exF [] b!"@c" {} [.load {} {} { value := b!"@c" } [{ name := b!"other" }] [{ name := b!"cc_library" }] {} true, exDef b!"m" [exNative b!"cc_library" []]] =
      [.load {} {} { value := b!"@c" } [{ name := b!"other" }] [{ name := b!"cc_library" }] {} true, exDef b!"m" [exCall (exId b!"cc_library") []]] := rfl

/-! ## Which repository the load names -/

/-- the repository to load from: its apparent name in the main module, else the name it has in WORKSPACE files, else its own -/
inductive RepoName (legacy mapping : Bytes → Bytes) (repo : Bytes) : Bytes → Prop
  | apparent : mapping repo ≠ [] → RepoName legacy mapping repo (mapping repo)
  | legacy : mapping repo = [] → legacy repo ≠ [] → RepoName legacy mapping repo (legacy repo)
  | own : mapping repo = [] → legacy repo = [] → RepoName legacy mapping repo repo

/-- **C81**: the module a load names is the one in the tables with the repository replaced by the name the main module uses for it; package and file
stay. Modules of the same repository, and files read without access to MODULE.bazel, keep theirs. -/
theorem C81_repository (legacy : Bytes → Bytes) (mapping : Bytes → Bytes) (load : Bytes) (hat : hasPrefix load b!"@" = true) (hne : (Labels.parse load).target ≠ [])
    (hm : ∀ r, c!"/" ∉ mapping r ∧ (mapping r).head? ≠ some c!"@") (hl : ∀ r, c!"/" ∉ legacy r ∧ (legacy r).head? ≠ some c!"@") :
    (∃ a, RepoName legacy mapping (Labels.parse load).repository a ∧
      Labels.parse (useApparent legacy (some mapping) none load).1 = { Labels.parse load with repository := a }) ∧
    (useApparent legacy none none load).1 = load ∧
    ∀ l, hasPrefix l b!"@" = false → (useApparent legacy (some mapping) none l).1 = l := by
  have hwf := Verif.Labels.parse_wf load
  refine ⟨?_, rfl, ?_⟩
  · have key : ∀ a, c!"/" ∉ a → a.head? ≠ some c!"@" → Labels.parse (Labels.format { Labels.parse load with repository := a }) = { Labels.parse load with repository := a } :=
      fun a h1 h2 => Verif.Props.Labels.C04_parse_format _ hwf.1 h1 h2 hne
    unfold useApparent
    simp only [hat, Bool.not_true, Bool.false_eq_true, if_false, Option.getD_none]
    by_cases h1 : mapping (Labels.parse load).repository = []
    · by_cases h2 : legacy (Labels.parse load).repository = []
      · refine ⟨_, .own h1 h2, ?_⟩
        rw [if_pos h1, if_pos h2]
        exact key _ hwf.2 hwf.3
      · refine ⟨_, .legacy h1 h2, ?_⟩
        rw [if_pos h1, if_neg h2]
        exact key _ (hl _).1 (hl _).2
    · refine ⟨_, .apparent h1, ?_⟩
      rw [if_neg h1]
      exact key _ (hm _).1 (hm _).2
  · intro l h
    unfold useApparent
    simp [h]

/-- The mapping is read once and kept: a later file of a workspace with another MODULE.bazel gets the names of the first. -/
theorem C81_cache_witness :
    let first : Bytes → Bytes := fun _ => b!"my_cc"
    let second : Bytes → Bytes := fun _ => b!"your_cc"
    let r := useApparent (fun _ => []) (some first) none b!"@rules_cc//cc:cc_library.bzl"
    r.1 = b!"@my_cc//cc:cc_library.bzl" ∧ (useApparent (fun _ => []) (some second) r.2 b!"@rules_cc//cc:cc_library.bzl").1 = b!"@my_cc//cc:cc_library.bzl" ∧
    (useApparent (fun _ => []) (some second) none b!"@rules_cc//cc:cc_library.bzl").1 = b!"@your_cc//cc:cc_library.bzl" := by decide +kernel

end Verif.Props.NotLoaded
