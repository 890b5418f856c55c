import Verif.Props.Targets
import Verif.Props.CommandFrame
import Verif.Proofs.MapE
import Verif.Props.Buildozer
/-
C69: what the commands of a target do to a whole file.
-/
namespace Verif.Props.Targets
open Verif Verif.Syntax Verif.Walk Verif.Edit Verif.Cmd Verif.Target Verif.Props.Rules

/-! ### Specification -/

/-- there is a call in the tree -/
def HasCall (e : Expr) : Prop := ∃ q c, Reach e q c ∧ IsCall c

/-- The second tree (at the given path) is the first one after `f` was applied to the calls that are not inside other calls; `f` also
gets the path of the call. Everything around these calls is the same. -/
inductive Edited (f : List Nat → Expr → Expr) : List Nat → Expr → Expr → Prop
  | call {p c} : IsCall c → Edited f p c (f p c)
  /-- the same node with other children -/
  | node {p e k} : ¬ IsCall e → HasCall e → k.length = (slots e).length →
      (∀ i x y, (slots e)[i]? = some x → k[i]? = some y → Edited f (p ++ [i]) x y) → Edited f p e (withSlots e k)
  | other {p e} : ¬ HasCall e → Edited f p e e

/-- The second file is the first one after `f` was applied to the rules: the same statements in the same order. -/
def EditedFile (f : Ptr → Expr → Expr) (t t' : Tree) : Prop :=
  t'.next = t.next ∧ Forall2 (fun q q' => q'.1 = q.1 ∧ Edited (fun p => f ⟨q.1, p⟩) [] q.2 q'.2) t.stmts t'.stmts

/-! ### Lemmas -/

theorem slots_with {e : Expr} {k : List Expr} (hl : ∀ c p m f t r fc, e ≠ .load c p m f t r fc) (h : k.length = (slots e).length) :
    slots (withSlots e k) = k := by
  refine slots_withSlots e k ⟨h, ?_⟩
  cases e <;> first | trivial | exact absurd rfl (hl _ _ _ _ _ _ _)

theorem interleave_ident {f t : List IdentN} {x : Expr} (h : x ∈ interleave f t) : ∃ i, x = .ident i := by
  induction f generalizing t with
  | nil => cases t <;> simp [interleave] at h
  | cons a f ih =>
    cases t with
    | nil => simp [interleave] at h
    | cons b t =>
      simp only [interleave, List.mem_cons] at h
      rcases h with rfl | rfl | h
      · exact ⟨_, rfl⟩
      · exact ⟨_, rfl⟩
      · exact ih h

theorem hasCall_cons {e : Expr} (hc : ¬ IsCall e) : HasCall e ↔ ∃ (i : Nat) (x : Expr), (slots e)[i]? = some x ∧ HasCall x := by
  constructor
  · rintro ⟨q, c, h, hcc⟩
    cases h with
    | here => exact absurd hcc hc
    | down _ hx h => exact ⟨_, _, hx, _, _, h, hcc⟩
  · rintro ⟨i, x, hx, q, c, h, hcc⟩
    exact ⟨_, _, .down hc hx h, hcc⟩

theorem hasCall_notLoad {e : Expr} (h : HasCall e) : ∀ c p m f t r fc, e ≠ .load c p m f t r fc := by
  rintro c p m f t r fc rfl
  rw [hasCall_cons (by rintro ⟨_, _, _, _, _, _, _, h⟩; cases h)] at h
  obtain ⟨i, x, hx, q, y, hr, hc⟩ := h
  have hm := List.mem_of_getElem? hx
  have hs : slots x = [] ∧ ¬ IsCall x := by
    simp only [slots, List.mem_cons] at hm
    rcases hm with rfl | hm
    · exact ⟨rfl, by rintro ⟨_, _, _, _, _, _, _, h⟩; cases h⟩
    · obtain ⟨i, rfl⟩ := interleave_ident hm
      exact ⟨rfl, by rintro ⟨_, _, _, _, _, _, _, h⟩; cases h⟩
  cases hr with
  | here => exact hs.2 hc
  | down _ hx _ => rw [hs.1] at hx; cases hx

theorem lenOk_of {e : Expr} (hl : ∀ c p m f t r fc, e ≠ .load c p m f t r fc) : lenOk e := by
  cases e <;> first | trivial | exact absurd rfl (hl _ _ _ _ _ _ _)

theorem notCall_with {e : Expr} (h : ¬ IsCall e) (k : List Expr) : ¬ IsCall (withSlots e k) := by
  rintro ⟨_, _, _, _, _, _, _, hw⟩
  unfold withSlots at hw
  split at hw <;> first | exact h ⟨_, _, _, _, _, _, _, rfl⟩ | exact h ⟨_, _, _, _, _, _, _, hw⟩ | cases hw

theorem with_with {e : Expr} (hl : ∀ c p m f t r fc, e ≠ .load c p m f t r fc) (k k' : List Expr) (h : k.length = (slots e).length) (h' : k'.length = k.length) :
    withSlots (withSlots e k) k' = withSlots e k' := by
  cases e with
  | load => exact absurd rfl (hl _ _ _ _ _ _ _)
  | lambda c p ps b => simp [slots] at h; simp [withSlots]; omega
  | defS => simp [slots] at h; simp [withSlots]; omega
  | ifS c p x t e f =>
    match k, k', h, h' with
    | x :: k, y :: k', h, h' => simp [slots] at h; simp at h'; simp [withSlots]; omega
  | file => rfl
  | list => rfl
  | set => rfl
  | tuple => rfl
  | dict => rfl
  | nil => rfl
  | commentBlock => rfl
  | ident => rfl
  | typedIdent => rfl
  | branch => rfl
  | literal => rfl
  | string => rfl
  | _ =>
    simp only [slots, List.length_cons, List.length_nil] at h
    rcases k with _ | ⟨a, _ | ⟨b, _ | ⟨c, _ | ⟨d, k⟩⟩⟩⟩ <;> rcases k' with _ | ⟨a', _ | ⟨b', _ | ⟨c', _ | ⟨d', k'⟩⟩⟩⟩ <;>
      simp at h h' <;> first | rfl | omega | (subst h; simp at h'; subst h'; rfl)

/-- Nothing happens if `f` changes no call. -/
theorem edited_refl {f : List Nat → Expr → Expr} : ∀ (e : Expr) (p : List Nat), (∀ q c, Reach e q c → IsCall c → f (p ++ q) c = c) → Edited f p e e := by
  intro e
  induction e using Verif.Walk.slot_induction with
  | h e ih =>
    intro p hf
    by_cases hc : IsCall e
    · have h := hf [] e (.here e) hc
      rw [List.append_nil] at h
      have := Edited.call (f := f) (p := p) hc
      rwa [h] at this
    · by_cases hh : HasCall e
      · have := Edited.node (f := f) (p := p) (k := slots e) hc hh rfl (by
          intro i x y hx hy
          rw [hx] at hy
          cases hy
          refine ih x (List.mem_of_getElem? hx) _ fun q c hr hcc => ?_
          have := hf (i :: q) c (.down hc hx hr) hcc
          simpa using this)
        rwa [withSlots_slots e (lenOk_of (hasCall_notLoad hh))] at this
      · exact .other hh

theorem edited_call {f : List Nat → Expr → Expr} (hf : ∀ p c, IsCall c → IsCall (f p c)) {p : List Nat} {e e' : Expr} (h : Edited f p e e') :
    (IsCall e' ↔ IsCall e) ∧ (HasCall e' ↔ HasCall e) := by
  induction h with
  | call hc => exact ⟨⟨fun _ => hc, fun _ => hf _ _ hc⟩, ⟨fun _ => ⟨_, _, .here _, hc⟩, fun _ => ⟨_, _, .here _, hf _ _ hc⟩⟩⟩
  | @node p e k hc hh hk hs ih =>
    have hn := notCall_with hc k
    refine ⟨⟨fun h => absurd h hn, fun h => absurd h hc⟩, ⟨fun _ => hh, fun _ => ?_⟩⟩
    rw [hasCall_cons hn, slots_with (hasCall_notLoad hh) hk]
    obtain ⟨i, x, hx, hxx⟩ := (hasCall_cons hc).mp hh
    have hi : i < k.length := by rw [hk]; exact (List.getElem?_eq_some_iff.mp hx).1
    exact ⟨i, k[i], List.getElem?_eq_getElem hi, ((ih i x k[i] hx (List.getElem?_eq_getElem hi)).2).mpr hxx⟩
  | other hh => exact ⟨Iff.rfl, Iff.rfl⟩

/-- The result is determined. -/
theorem edited_unique {f : List Nat → Expr → Expr} {p : List Nat} {e e1 e2 : Expr} (h1 : Edited f p e e1) (h2 : Edited f p e e2) : e1 = e2 := by
  induction h1 generalizing e2 with
  | call hc =>
    cases h2 with
    | call => rfl
    | node hn => exact absurd hc hn
    | other hn => exact absurd ⟨_, _, .here _, hc⟩ hn
  | @node p e k hc hh hk hs ih =>
    cases h2 with
    | call h => exact absurd h hc
    | @node _ _ k' _ _ hk' hs' =>
      congr 1
      refine List.ext_getElem (hk.trans hk'.symm) fun i hi hi' => ?_
      have hx : i < (slots e).length := by omega
      exact ih i _ _ (List.getElem?_eq_getElem hx) (List.getElem?_eq_getElem hi) (hs' i _ _ (List.getElem?_eq_getElem hx) (List.getElem?_eq_getElem hi'))
    | other hn => exact absurd hh hn
  | other hh =>
    cases h2 with
    | call h => exact absurd ⟨_, _, .here _, h⟩ hh
    | node _ h => exact absurd h hh
    | other => rfl

theorem edited_trans {f g : List Nat → Expr → Expr} (hf : ∀ p c, IsCall c → IsCall (f p c)) {p : List Nat} {e e1 e2 : Expr} (h1 : Edited f p e e1)
    (h2 : Edited g p e1 e2) : Edited (fun p c => g p (f p c)) p e e2 := by
  induction h1 generalizing e2 with
  | @call p c hc =>
    cases h2 with
    | call h => exact Edited.call (f := fun p c => g p (f p c)) hc
    | node hn => exact absurd (hf _ _ hc) hn
    | other hn => exact absurd ⟨_, _, .here _, hf _ _ hc⟩ hn
  | @node p e k hc hh hk hs ih =>
    have hn := notCall_with hc k
    have hl := hasCall_notLoad hh
    have hw : HasCall (withSlots e k) := (edited_call hf (.node hc hh hk hs)).2.mpr hh
    generalize he : withSlots e k = e1 at h2
    cases h2 with
    | call h => exact absurd (he ▸ h) hn
    | @node _ _ k' _ _ hk' hs' =>
      subst he
      rw [slots_with hl hk] at hk' hs'
      rw [with_with hl k k' hk hk']
      refine .node hc hh (hk'.trans hk) fun i x y hx hy => ?_
      have hi : i < k.length := by rw [hk]; exact (List.getElem?_eq_some_iff.mp hx).1
      exact ih i x k[i] hx (List.getElem?_eq_getElem hi) (hs' i _ _ (List.getElem?_eq_getElem hi) hy)
    | other h => exact absurd (he ▸ hw) h
  | other hh =>
    cases h2 with
    | call h => exact absurd ⟨_, _, .here _, h⟩ hh
    | node _ h => exact absurd h hh
    | other => exact .other hh

/-- changing one call -/
theorem edited_updateAt (g : Expr → Expr) {e : Expr} {p : List Nat} {c : Expr} (h : Reach e p c) (hc : IsCall c) :
    ∀ p0, Edited (fun q c => if q = p0 ++ p then g c else c) p0 e (updateAt g p e) := by
  induction h with
  | here e =>
    intro p0
    have := Edited.call (f := fun q c => if q = p0 ++ [] then g c else c) (p := p0) hc
    simpa [updateAt] using this
  | @down e i x p y hne hx hr ih =>
    intro p0
    unfold updateAt
    rw [hx]
    dsimp only
    refine .node hne ⟨_, _, .down hne hx hr, hc⟩ (by simp) fun j x' y' hx' hy' => ?_
    by_cases hj : j = i
    · subst hj
      rw [hx] at hx'
      cases hx'
      rw [List.getElem?_set_self (List.getElem?_eq_some_iff.mp hx).1] at hy'
      cases hy'
      have := ih hc (p0 ++ [j])
      simpa using this
    · rw [List.getElem?_set_ne (fun h => hj h.symm), hx'] at hy'
      cases hy'
      refine edited_refl _ _ fun q c _ _ => if_neg fun h => ?_
      simp at h
      exact hj h.1

/-! ### Files -/

theorem forall2_refl {α : Type} {R : α → α → Prop} : ∀ {l : List α}, (∀ x ∈ l, R x x) → Forall2 R l l := by
  intro l
  induction l with
  | nil => intro _; exact .nil
  | cons x l ih => intro h; exact .cons (h x (by simp)) (ih fun y hy => h y (by simp [hy]))

theorem forall2_trans {α : Type} {R S T : α → α → Prop} (h : ∀ x y z, R x y → S y z → T x z) {a b c : List α} (h1 : Forall2 R a b) (h2 : Forall2 S b c) :
    Forall2 T a c := by
  induction h1 generalizing c with
  | nil => cases h2; exact .nil
  | cons hx _ ih => cases h2 with | cons hy hr => exact .cons (h _ _ _ hx hy) (ih hr)

theorem forall2_mem {α : Type} {R : α → α → Prop} {a b : List α} (h : Forall2 R a b) :
    (∀ x ∈ a, ∃ y ∈ b, R x y) ∧ (∀ y ∈ b, ∃ x ∈ a, R x y) := by
  induction h with
  | nil => exact ⟨fun _ h => (by cases h), fun _ h => (by cases h)⟩
  | cons hx _ ih =>
    constructor
    · intro x hm
      rcases List.mem_cons.mp hm with rfl | hm
      · exact ⟨_, List.mem_cons_self, hx⟩
      · obtain ⟨y, hy, h⟩ := ih.1 x hm; exact ⟨y, List.mem_cons_of_mem _ hy, h⟩
    · intro x hm
      rcases List.mem_cons.mp hm with rfl | hm
      · exact ⟨_, List.mem_cons_self, hx⟩
      · obtain ⟨y, hy, h⟩ := ih.2 x hm; exact ⟨y, List.mem_cons_of_mem _ hy, h⟩

theorem editedFile_ids {f : Ptr → Expr → Expr} {t t' : Tree} (h : EditedFile f t t') : t'.stmts.map (·.1) = t.stmts.map (·.1) := by
  have h2 := h.2
  generalize t.stmts = a at h2
  generalize t'.stmts = b at h2
  induction h2 with
  | nil => rfl
  | cons hx _ ih => rw [List.map_cons, List.map_cons, ih, hx.1]

theorem editedFile_proper {f : Ptr → Expr → Expr} {t t' : Tree} (h : EditedFile f t t') (ht : Proper t) : Proper t' := by
  have hi := editedFile_ids h
  refine ⟨by rw [hi]; exact ht.nodup, fun q hq => ?_⟩
  have : q.1 ∈ t'.stmts.map (·.1) := List.mem_map.mpr ⟨q, hq, rfl⟩
  rw [hi] at this
  obtain ⟨q', hq', he⟩ := List.mem_map.mp this
  rw [h.1, ← he]
  exact ht.fresh q' hq'

theorem editedFile_trans {f g : Ptr → Expr → Expr} (hf : ∀ r c, IsCall c → IsCall (f r c)) {t t1 t2 : Tree} (h1 : EditedFile f t t1) (h2 : EditedFile g t1 t2) :
    EditedFile (fun r c => g r (f r c)) t t2 := by
  refine ⟨h2.1.trans h1.1, forall2_trans ?_ h1.2 h2.2⟩
  rintro ⟨a, x⟩ ⟨b, y⟩ ⟨c, z⟩ ⟨rfl, h⟩ ⟨rfl, h'⟩
  exact ⟨rfl, edited_trans (fun p c => hf _ c) h h'⟩

theorem editedFile_refl {f : Ptr → Expr → Expr} {t : Tree} (hf : ∀ r c, IsRule t r c → f r c = c) : EditedFile f t t :=
  ⟨rfl, forall2_refl fun q hq => ⟨rfl, edited_refl _ _ fun p c hr hc => hf ⟨q.1, p⟩ c ⟨q.2, hq, hr, hc⟩⟩⟩

theorem editedFile_congr {f g : Ptr → Expr → Expr} {t t' : Tree} (h : EditedFile f t t') (hfg : ∀ r c, f r c = g r c) : EditedFile g t t' := by
  have : f = g := funext fun r => funext fun c => hfg r c
  rwa [← this]

/-- the calls of the edited tree -/
theorem edited_reach {f : List Nat → Expr → Expr} (hf : ∀ p c, IsCall c → IsCall (f p c)) {p : List Nat} {e e' : Expr} (h : Edited f p e e') :
    (∀ q c, Reach e q c → IsCall c → Reach e' q (f (p ++ q) c)) ∧ (∀ q c', Reach e' q c' → IsCall c' → ∃ c, Reach e q c ∧ IsCall c ∧ c' = f (p ++ q) c) := by
  induction h with
  | @call p c hc =>
    constructor
    · intro q c' h h'
      cases h with
      | here => rw [List.append_nil]; exact .here _
      | down hn => exact absurd hc hn
    · intro q c' h h'
      cases h with
      | here => exact ⟨c, .here _, hc, by rw [List.append_nil]⟩
      | down hn => exact absurd (hf _ _ hc) hn
  | @node p e k hc hh hk hs ih =>
    have hn := notCall_with hc k
    have hsl := slots_with (hasCall_notLoad hh) hk
    constructor
    · intro q c h h'
      cases h with
      | here => exact absurd h' hc
      | @down _ i x q _ _ hx hr =>
        have hi : i < k.length := by rw [hk]; exact (List.getElem?_eq_some_iff.mp hx).1
        have := (ih i x k[i] hx (List.getElem?_eq_getElem hi)).1 q c hr h'
        rw [List.append_assoc] at this
        exact .down hn (by rw [hsl]; exact List.getElem?_eq_getElem hi) this
    · intro q c' h h'
      cases h with
      | here => exact absurd h' hn
      | @down _ i y q _ _ hy hr =>
        rw [hsl] at hy
        have hi : i < (slots e).length := by rw [← hk]; exact (List.getElem?_eq_some_iff.mp hy).1
        obtain ⟨c, h1, h2, h3⟩ := (ih i _ y (List.getElem?_eq_getElem hi) hy).2 q c' hr h'
        rw [List.append_assoc] at h3
        exact ⟨c, .down hc (List.getElem?_eq_getElem hi) h1, h2, h3⟩
  | other hh => exact ⟨fun q c h h' => absurd ⟨_, _, h, h'⟩ hh, fun q c h h' => absurd ⟨_, _, h, h'⟩ hh⟩

theorem editedFile_rules {f : Ptr → Expr → Expr} (hf : ∀ r c, IsCall c → IsCall (f r c)) {t t' : Tree} (h : EditedFile f t t') :
    (∀ r c, IsRule t r c → IsRule t' r (f r c)) ∧ (∀ r c', IsRule t' r c' → ∃ c, IsRule t r c ∧ c' = f r c) := by
  constructor
  · rintro ⟨id, p⟩ c ⟨e, hm, hr, hc⟩
    obtain ⟨⟨id', e'⟩, hm', h1, h2⟩ := (forall2_mem h.2).1 _ hm
    cases h1
    exact ⟨e', hm', by simpa using (edited_reach (fun p c => hf ⟨id, p⟩ c) h2).1 p c hr hc, hf _ _ hc⟩
  · rintro ⟨id, p⟩ c' ⟨e', hm', hr, hc⟩
    obtain ⟨⟨id', e⟩, hm, h1, h2⟩ := (forall2_mem h.2).2 _ hm'
    cases h1
    obtain ⟨c, g1, g2, g3⟩ := (edited_reach (fun p c => hf ⟨_, p⟩ c) h2).2 p c' hr hc
    exact ⟨c, ⟨e, hm, g1, g2⟩, by simpa using g3⟩

/-! ### Commands -/

theorem applyTo_isCall (run : St → Res) {c : Expr} (h : IsCall c) : IsCall (applyTo run c) := by
  obtain ⟨_, _, _, _, _, _, _, rfl⟩ := h
  exact ⟨_, _, _, _, _, _, _, rfl⟩

theorem onRule_edited (run : St → Res) {t : Tree} (ht : Proper t) {r : Ptr} {c : Expr} (h : IsRule t r c) :
    EditedFile (fun r' c => if r' = r then applyTo run c else c) t (onRule run t r).1 := by
  have hcall := isRule_callAt ht h
  obtain ⟨e, hm, hr, hc⟩ := h
  unfold onRule
  rw [hcall]
  obtain ⟨c1, x, p, l, e1, a, b, rfl⟩ := hc
  dsimp only [stOf]
  refine ⟨rfl, ?_⟩
  dsimp only
  have key : ∀ l : List (Nat × Expr), (∀ q ∈ l, q ∈ t.stmts) →
      Forall2 (fun q q' => q'.1 = q.1 ∧ Edited (fun p c => if (⟨q.1, p⟩ : Ptr) = r then applyTo run c else c) [] q.2 q'.2) l
        (l.map fun q => if q.1 = r.stmt then (q.1, updateAt (applyTo run) r.path q.2) else q) := by
    intro l
    induction l with
    | nil => intro _; exact .nil
    | cons q l ih =>
      intro hl
      rw [List.map_cons]
      refine .cons ?_ (ih fun q hq => hl q (by simp [hq]))
      by_cases hq : q.1 = r.stmt
      · rw [if_pos hq]
        refine ⟨rfl, ?_⟩
        have hqe : q = (r.stmt, e) := by
          have h1 := find_id ht.nodup (id := q.1) (e := q.2) (hl q (by simp))
          have h2 := find_id ht.nodup hm
          rw [hq, h2] at h1
          obtain ⟨q1, q2⟩ := q
          cases hq
          cases Option.some.inj h1
          rfl
        subst hqe
        have := edited_updateAt (applyTo run) hr ⟨_, _, _, _, _, _, _, rfl⟩ []
        refine (show (fun q c => if q = [] ++ r.path then applyTo run c else c) = (fun p c => if (⟨r.stmt, p⟩ : Ptr) = r then applyTo run c else c) from ?_) ▸ this
        funext p c
        have : ((⟨r.stmt, p⟩ : Ptr) = r) ↔ p = [] ++ r.path := by
          cases r; simp
        simp only [this]
      · rw [if_neg hq]
        refine ⟨rfl, edited_refl _ _ fun p c _ _ => if_neg fun h => hq ?_⟩
        rw [← h]
  exact key t.stmts fun _ h => h

theorem stop_one {σ ρ ε : Type} (kg : Bool) (c : Buildozer.Command σ ρ ε) (rs : List (Option ρ)) (s : Buildozer.Run σ ε)
    (h : (rs.foldl (Buildozer.runOne kg c) s).stop = false) : s.stop = false := by
  cases hs : s.stop with
  | false => rfl
  | true =>
    have : ∀ rs : List (Option ρ), rs.foldl (Buildozer.runOne kg c) s = s := by
      intro rs
      induction rs with
      | nil => rfl
      | cons r rs ih => rw [List.foldl_cons, show Buildozer.runOne kg c s r = s by unfold Buildozer.runOne; rw [if_pos hs]]; exact ih
    rw [this, hs] at h; cases h

theorem runOne_tree {σ ρ ε : Type} (kg : Bool) (c : Buildozer.Command σ ρ ε) (s : Buildozer.Run σ ε) (r : Option ρ) (h : s.stop = false) :
    (Buildozer.runOne kg c s r).tree = (c.run s.tree r).tree := by
  unfold Buildozer.runOne
  rw [if_neg (by simp [h])]
  dsimp only
  split
  · split <;> rfl
  · rfl

theorem onRules_edited (kg : Bool) (run : St → Res) : ∀ (rules : List Ptr) (s : Buildozer.Run Tree Unit), Proper s.tree → rules.Nodup →
    (∀ r ∈ rules, ∃ c, IsRule s.tree r c) → ((rules.map some).foldl (Buildozer.runOne kg (ruleCommand run)) s).stop = false →
    EditedFile (fun r c => if r ∈ rules then applyTo run c else c) s.tree ((rules.map some).foldl (Buildozer.runOne kg (ruleCommand run)) s).tree := by
  intro rules
  induction rules with
  | nil => intro s _ _ _ _; exact editedFile_refl fun r c _ => by simp
  | cons r rules ih =>
    intro s ht hnd hr hst
    rw [List.map_cons, List.foldl_cons] at hst ⊢
    have hst0 : s.stop = false := stop_one kg (ruleCommand run) (some r :: rules.map some) s hst
    rw [List.nodup_cons] at hnd
    obtain ⟨c, hc⟩ := hr r (by simp)
    have htree : (Buildozer.runOne kg (ruleCommand run) s (some r)).tree = (onRule run s.tree r).1 := runOne_tree kg _ s _ hst0
    have h1 := onRule_edited run ht hc
    rw [← htree] at h1
    have hf : ∀ (r' : Ptr) (c : Expr), IsCall c → IsCall ((fun r' c => if r' = r then applyTo run c else c) r' c) := by
      intro r' c h
      dsimp only
      split
      · exact applyTo_isCall run h
      · exact h
    have h2 := ih _ (editedFile_proper h1 ht) hnd.2 (fun r' hr' => by
      obtain ⟨c', hc'⟩ := hr r' (by simp [hr'])
      exact ⟨_, (editedFile_rules hf h1).1 r' c' hc'⟩) hst
    refine editedFile_congr (editedFile_trans hf h1 h2) fun r' c' => ?_
    by_cases he : r' = r
    · subst he
      rw [if_neg hnd.1, if_pos rfl, if_pos (by simp)]
    · rw [if_neg he]
      by_cases hm : r' ∈ rules
      · rw [if_pos hm, if_pos (by simp [hm])]
      · rw [if_neg hm, if_neg (by simp [he, hm])]

theorem commands_edited (kg : Bool) (rules : List Ptr) (hnd : rules.Nodup) : ∀ (cmds : List (St → Res)) (s : Buildozer.Run Tree Unit), Proper s.tree →
    (∀ r ∈ rules, ∃ c, IsRule s.tree r c) → ((cmds.map ruleCommand).foldl (Buildozer.runCommand kg rules) s).stop = false →
    EditedFile (fun r c => if r ∈ rules then cmds.foldl (fun c run => applyTo run c) c else c) s.tree
      ((cmds.map ruleCommand).foldl (Buildozer.runCommand kg rules) s).tree := by
  intro cmds
  induction cmds with
  | nil => intro s _ _ _; exact editedFile_refl fun r c _ => by simp
  | cons run cmds ih =>
    intro s ht hr hst
    rw [List.map_cons, List.foldl_cons] at hst ⊢
    have hst1 : (Buildozer.runCommand kg rules s (ruleCommand run)).stop = false := by
      cases hs : (Buildozer.runCommand kg rules s (ruleCommand run)).stop with
      | false => rfl
      | true =>
        rw [Verif.Props.Buildozer.stop_cmds kg rules _ _ hs, hs] at hst
        cases hst
    have h1 : EditedFile _ s.tree (Buildozer.runCommand kg rules s (ruleCommand run)).tree := onRules_edited kg run rules s ht hnd hr hst1
    have hf : ∀ (r' : Ptr) (c : Expr), IsCall c → IsCall ((fun r c => if r ∈ rules then applyTo run c else c) r' c) := by
      intro r' c h
      dsimp only
      split
      · exact applyTo_isCall run h
      · exact h
    have h2 := ih _ (editedFile_proper h1 ht) (fun r' hr' => by
      obtain ⟨c', hc'⟩ := hr r' hr'
      exact ⟨_, (editedFile_rules hf h1).1 r' c' hc'⟩) hst
    refine editedFile_congr (editedFile_trans hf h1 h2) fun r' c' => ?_
    by_cases hm : r' ∈ rules
    · rw [if_pos hm, if_pos hm, if_pos hm]; rfl
    · rw [if_neg hm, if_neg hm, if_neg hm]

/-! ### Targets -/

theorem means_rules {dir : Option Bytes} {t : Tree} (ht : Proper t) {name : Bytes} {rs : List Ptr} (h : Means dir t name rs) :
    rs.Nodup ∧ ∀ r ∈ rs, ∃ c, IsRule t r c := by
  cases h with
  | named pre id e post he hc hp =>
    refine ⟨by simp, fun r hr => ?_⟩
    rw [List.mem_singleton] at hr
    subst hr
    have hcall : IsCall e := by
      rcases hc with ⟨c, x, p, l, e', a, b, rfl, _⟩ | ⟨hc, _⟩
      · exact ⟨_, _, _, _, _, _, _, rfl⟩
      · exact hc
    exact ⟨e, e, by rw [he]; simp, .here e, hcall⟩
  | exported pre r post _ he =>
    refine ⟨by simp, fun r' hr => ?_⟩
    rw [List.mem_singleton] at hr
    subst hr
    obtain ⟨c, h, _⟩ := (mem_rules (t := t) (fun _ => true) r').mp (by rw [he]; simp)
    exact ⟨c, h⟩
  | all =>
    refine ⟨rules_nodup ht _, fun r hr => ?_⟩
    obtain ⟨c, h, _⟩ := (mem_rules (t := t) (fun _ => true) r).mp hr
    exact ⟨c, h⟩
  | kind k _ _ _ _ _ hs hr => exact ⟨(rules_nodup ht _).sublist hs, fun r h => (by obtain ⟨c, h, _⟩ := (hr r).mp h; exact ⟨c, h⟩)⟩
  | line s n r c _ _ _ _ hr =>
    refine ⟨by simp, fun r' h => ?_⟩
    rw [List.mem_singleton] at h
    subst h
    exact ⟨c, hr⟩

theorem edited_congr {f g : List Nat → Expr → Expr} {p : List Nat} {e e' : Expr} (h : Edited f p e e') :
    (∀ q c, Reach e q c → IsCall c → f (p ++ q) c = g (p ++ q) c) → Edited g p e e' := by
  induction h with
  | @call p c hc =>
    intro hfg
    have := hfg [] c (.here c) hc
    rw [List.append_nil] at this
    rw [this]
    exact .call hc
  | @node p e k hc hh hk _ ih =>
    intro hfg
    exact .node hc hh hk fun i x y hx hy => ih i x y hx hy fun q c hr hcc => (by
      have := hfg (i :: q) c (.down hc hx hr) hcc
      simpa using this)
  | other hh => intro _; exact .other hh

theorem forall2_imp {α : Type} {R S : α → α → Prop} {a b : List α} (h : Forall2 R a b) (hi : ∀ x y, x ∈ a → R x y → S x y) : Forall2 S a b := by
  induction h with
  | nil => exact .nil
  | cons hx _ ih => exact .cons (hi _ _ (by simp) hx) (ih fun x y hm => hi x y (by simp [hm]))

theorem editedFile_congr' {f g : Ptr → Expr → Expr} {t t' : Tree} (h : EditedFile f t t') (hfg : ∀ r c, IsRule t r c → f r c = g r c) : EditedFile g t t' :=
  ⟨h.1, forall2_imp h.2 fun q q' hq hx => ⟨hx.1, edited_congr hx.2 fun p c hr hc => hfg ⟨q.1, p⟩ c ⟨q.2, hq, hr, hc⟩⟩⟩

/-- what a sequence of commands makes of a call: one after the other -/
def afterAll (cmds : List (St → Res)) (c : Expr) : Expr := cmds.foldl (fun c run => applyTo run c) c

theorem afterAll_isCall (cmds : List (St → Res)) : ∀ {c : Expr}, IsCall c → IsCall (afterAll cmds c) := by
  induction cmds with
  | nil => intro c h; exact h
  | cons run cmds ih => intro c h; exact ih (applyTo_isCall run h)

theorem filterRules_mem {types : List Bytes} {t : Tree} (ht : Proper t) {rs : List Ptr} {r : Ptr} {c : Expr} (hr : IsRule t r c) :
    r ∈ filterRules types t rs ↔ r ∈ rs ∧ (types = [] ∨ ∃ k ∈ types, OfKind k c) := by
  unfold filterRules
  by_cases h : types = []
  · rw [if_pos h]; simp [h]
  · rw [if_neg h, List.mem_filter, decide_eq_true_eq, isRule_callAt ht hr]
    have hc := hr.choose_spec.2.2
    constructor
    · rintro ⟨h1, h2⟩; exact ⟨h1, .inr ⟨_, h2, (callKind_iff hc _).mp rfl⟩⟩
    · rintro ⟨h1, h2 | ⟨k, hk, h2⟩⟩
      · exact absurd h2 h
      · exact ⟨h1, by rw [(callKind_iff hc k).mpr h2]; exact hk⟩

theorem filterRules_sublist (types : List Bytes) (t : Tree) (rs : List Ptr) : (filterRules types t rs).Sublist rs := by
  unfold filterRules
  split
  · exact List.Sublist.refl _
  · exact List.filter_sublist

/-- the commands of a target that was found -/
theorem found_edited (dir : Option Bytes) (types : List Bytes) (kg : Bool) (s : Buildozer.Run Tree Unit) (name : Bytes) (cmds : List (St → Res)) (t1 : Tree)
    (rs : List Ptr) (ht : Proper t1) (hx : expandTargets dir s.tree name = (t1, some rs)) (hs : s.stop = false) (hnd : rs.Nodup) (hr : ∀ r ∈ rs, ∃ c, IsRule t1 r c)
    (hst : (Buildozer.runTarget kg s ⟨expandOf dir types name, cmds.map ruleCommand⟩).stop = false) :
    EditedFile (fun r c => open Classical in if r ∈ rs ∧ (types = [] ∨ ∃ k ∈ types, OfKind k c) then afterAll cmds c else c) t1
      (Buildozer.runTarget kg s ⟨expandOf dir types name, cmds.map ruleCommand⟩).tree := by
  have he : expandOf dir types name s.tree = (t1, .ok (filterRules types t1 rs)) := by unfold expandOf; rw [hx]
  unfold Buildozer.runTarget at hst ⊢
  rw [if_neg (by simp [hs])] at hst ⊢
  dsimp only at hst ⊢
  rw [he] at hst ⊢
  dsimp only at hst ⊢
  refine editedFile_congr' (commands_edited kg _ (hnd.sublist (filterRules_sublist ..)) cmds { s with tree := t1 } ht
    (fun r h => hr r ((filterRules_sublist ..).subset h)) hst) fun r c hrc => ?_
  by_cases h : r ∈ filterRules types t1 rs
  · rw [if_pos h, if_pos ((filterRules_mem ht hrc).mp h)]; rfl
  · rw [if_neg h, if_neg fun h' => h ((filterRules_mem ht hrc).mpr h')]

/-- **C69 (target).** If a target was found and the run was not stopped by an error, then exactly the rules it means (of the given kinds, if
kinds are given) are changed: each is what the commands, one after the other, make of its call. The rest of the file is the same. -/
theorem C69_target (dir : Option Bytes) (types : List Bytes) (kg : Bool) (s : Buildozer.Run Tree Unit) (ht : Proper s.tree) (hs : s.stop = false)
    (name : Bytes) (hn : name ≠ b!"__pkg__") (cmds : List (St → Res)) (rs : List Ptr) (hm : Means dir s.tree name rs)
    (hst : (Buildozer.runTarget kg s ⟨expandOf dir types name, cmds.map ruleCommand⟩).stop = false) :
    EditedFile (fun r c => open Classical in if r ∈ rs ∧ (types = [] ∨ ∃ k ∈ types, OfKind k c) then afterAll cmds c else c) s.tree
      (Buildozer.runTarget kg s ⟨expandOf dir types name, cmds.map ruleCommand⟩).tree := by
  obtain ⟨h1, h2⟩ := C68_targets dir ht name hn
  obtain ⟨hnd, hr⟩ := means_rules ht hm
  exact found_edited dir types kg s name cmds s.tree rs ht (Prod.ext h1 ((h2 rs).mpr hm)) hs hnd hr hst

/-- **C69 (no target).** A target that means nothing is an error, and the file is not changed by commands for rules. -/
theorem C69_missing (dir : Option Bytes) (types : List Bytes) (kg : Bool) (s : Buildozer.Run Tree Unit) (ht : Proper s.tree) (hs : s.stop = false)
    (name : Bytes) (hn : name ≠ b!"__pkg__") (cmds : List (St → Res)) (hm : ¬ ∃ rs, Means dir s.tree name rs) :
    (Buildozer.runTarget kg s ⟨expandOf dir types name, cmds.map ruleCommand⟩).tree = s.tree ∧
    (Buildozer.runTarget kg s ⟨expandOf dir types name, cmds.map ruleCommand⟩).errs = s.errs ++ [()] ∧
    (Buildozer.runTarget kg s ⟨expandOf dir types name, cmds.map ruleCommand⟩).stop = !kg := by
  obtain ⟨h1, h2⟩ := C68_targets dir ht name hn
  have hx : expandTargets dir s.tree name = (s.tree, none) := by
    refine Prod.ext h1 ?_
    cases h : (expandTargets dir s.tree name).2 with
    | none => rfl
    | some rs => exact absurd ⟨rs, (h2 rs).mp h⟩ hm
  have he : expandOf dir types name s.tree = (s.tree, .error ()) := by unfold expandOf; rw [hx]
  have hnone : ∀ (cmds : List (St → Res)) (s : Buildozer.Run Tree Unit), (cmds.map ruleCommand).foldl (Buildozer.runCommand kg []) s = s := by
    intro cmds
    induction cmds with
    | nil => intro s; rfl
    | cons c cmds ih => intro s; exact ih s
  unfold Buildozer.runTarget
  rw [if_neg (by simp [hs])]
  dsimp only
  rw [he]
  dsimp only
  cases kg with
  | true => rw [if_pos rfl, hnone]; exact ⟨rfl, rfl, hs⟩
  | false => exact ⟨rfl, rfl, rfl⟩

/-- **C69 (package).** The commands of the target `__pkg__` change only the package declaration, after it was added if there was none
(`C68_package` says where). -/
theorem C69_package (dir : Option Bytes) (types : List Bytes) (kg : Bool) (s : Buildozer.Run Tree Unit) (ht : Proper s.tree) (hs : s.stop = false)
    (cmds : List (St → Res)) (t1 : Tree) (r : Ptr) (hx : expandTargets dir s.tree b!"__pkg__" = (t1, some [r]))
    (hst : (Buildozer.runTarget kg s ⟨expandOf dir types b!"__pkg__", cmds.map ruleCommand⟩).stop = false) :
    EditedFile (fun r' c => open Classical in if r' = r ∧ (types = [] ∨ ∃ k ∈ types, OfKind k c) then afterAll cmds c else c) t1
      (Buildozer.runTarget kg s ⟨expandOf dir types b!"__pkg__", cmds.map ruleCommand⟩).tree := by
  have h : Proper t1 ∧ ∃ c, IsRule t1 r c := by
    rcases C68_package dir s.tree with ⟨pre, id, e, post, he, hc, _, hx'⟩ | ⟨_, pre, post, he, _, _, hx'⟩
    · rw [hx] at hx'
      cases hx'
      refine ⟨ht, e, e, by rw [he]; simp, .here e, ?_⟩
      obtain ⟨_, _, _, _, _, _, _, _, h⟩ := hc
      exact ⟨_, _, _, _, _, _, _, h⟩
    · rw [hx] at hx'
      cases hx'
      refine ⟨⟨?_, ?_⟩, _, _, List.mem_append_right _ List.mem_cons_self, .here _, ⟨_, _, _, _, _, _, _, rfl⟩⟩
      · have hnd := ht.nodup
        have hf : s.tree.next ∉ s.tree.stmts.map (·.1) := by
          intro h
          obtain ⟨q, hq, h⟩ := List.mem_map.mp h
          have := ht.fresh q hq
          omega
        rw [he, List.map_append] at hnd hf
        dsimp only
        rw [List.map_append, List.map_cons]
        have hp : (pre.map (·.1) ++ s.tree.next :: post.map (·.1)).Perm (s.tree.next :: (pre.map (·.1) ++ post.map (·.1))) := List.perm_middle
        exact hp.nodup_iff.mpr (List.nodup_cons.mpr ⟨hf, hnd⟩)
      · intro q hq
        dsimp only at hq ⊢
        rw [List.mem_append, List.mem_cons] at hq
        have : q = (s.tree.next, (Expr.call {} (.ident { name := b!"package" }) {} [] {} false false)) ∨ q ∈ s.tree.stmts := by
          rw [he, List.mem_append]
          rcases hq with h | h | h
          · exact .inr (.inl h)
          · exact .inl h
          · exact .inr (.inr h)
        rcases this with rfl | h
        · exact Nat.lt_succ_self _
        · have := ht.fresh q h; omega
  have := found_edited dir types kg s b!"__pkg__" cmds t1 [r] h.1 hx hs (by simp) (by
    intro r' hr'
    rw [List.mem_singleton] at hr'
    subst hr'
    exact h.2) hst
  exact editedFile_congr this fun r' c => by
    by_cases h' : r' = r ∧ (types = [] ∨ ∃ k ∈ types, OfKind k c)
    · rw [if_pos h', if_pos ⟨List.mem_singleton.mpr h'.1, h'.2⟩]
    · rw [if_neg h', if_neg fun h => h' ⟨List.mem_singleton.mp h.1, h.2⟩]

/-- **C69 (meaning).** An edited file has the same statements (by identity) in the same order, the same rules at the same places, and
each rule is what `f` says; `f` determines the whole file. -/
theorem C69_edited {f : Ptr → Expr → Expr} (hf : ∀ r c, IsCall c → IsCall (f r c)) {t t' : Tree} (ht : Proper t) (h : EditedFile f t t') :
    Proper t' ∧ t'.stmts.map (·.1) = t.stmts.map (·.1) ∧ (∀ r c', IsRule t' r c' ↔ ∃ c, IsRule t r c ∧ c' = f r c) ∧
    (∀ q ∈ t.stmts, ¬ HasCall q.2 → q ∈ t'.stmts) ∧ ∀ t'', EditedFile f t t'' → t'' = t' := by
  refine ⟨editedFile_proper h ht, editedFile_ids h, fun r c' => ⟨(editedFile_rules hf h).2 r c', ?_⟩, ?_, ?_⟩
  · rintro ⟨c, hc, rfl⟩
    exact (editedFile_rules hf h).1 r c hc
  · intro q hq hn
    obtain ⟨q', hq', h1, h2⟩ := (forall2_mem h.2).1 q hq
    have : q' = q := by
      refine Prod.ext h1 ?_
      generalize q'.2 = y at h2 ⊢
      cases h2 with
      | call hc => exact absurd ⟨_, _, .here _, hc⟩ hn
      | node _ h => exact absurd h hn
      | other => rfl
    rw [← this]; exact hq'
  · rintro ⟨l, n⟩ ⟨h1, h2⟩
    obtain ⟨l', n'⟩ := t'
    obtain ⟨h1', h2'⟩ := h
    dsimp only at *
    have : ∀ {a b c : List (Nat × Expr)}, Forall2 (fun q q' => q'.1 = q.1 ∧ Edited (fun p => f ⟨q.1, p⟩) [] q.2 q'.2) a b →
        Forall2 (fun q q' => q'.1 = q.1 ∧ Edited (fun p => f ⟨q.1, p⟩) [] q.2 q'.2) a c → b = c := by
      intro a b c hb
      induction hb generalizing c with
      | nil => intro hc; cases hc; rfl
      | cons hx _ ih =>
        intro hc
        cases hc with
        | cons hy hc => rw [ih hc, Prod.ext (hx.1.trans hy.1.symm) (edited_unique hx.2 hy.2)]
    rw [this h2 h2', h1, h1']

/-- the value of an attribute of a call -/
def attrOf (k : Bytes) : Expr → Expr
  | .call _ _ _ l .. => attr k l
  | _ => .nil

/-- **C69 (attributes).** An attribute that none of the commands names has the same value after all of them. -/
theorem C69_attributes (fuel : Nat) (E : Env) (cmds : List Commands.Command) (k : Bytes) (hk : ∀ c ∈ cmds, ∀ args, k ∉ c.names args) :
    ∀ e, attrOf k (afterAll (cmds.map fun c => c.run fuel E) e) = attrOf k e := by
  induction cmds with
  | nil => intro e; rfl
  | cons c cmds ih =>
    intro e
    show attrOf k (afterAll (cmds.map fun c => c.run fuel E) (applyTo (c.run fuel E) e)) = _
    rw [ih fun c h => hk c (by simp [h])]
    cases e with
    | call cm x p l e a b => exact Commands.C65_other_attributes fuel E c ⟨cm, x, l, []⟩ k (hk c (by simp) l)
    | _ => rfl

/-! ### Examples -/

/-- a command: add `//b` to `deps` -/
def exCmd : St → Res := cmdAdd ⟨false, false, fun _ => true, fun _ => false, fun _ => false, b!"p"⟩ b!"deps" [b!"//b"]

def exRun : Buildozer.Run Tree Unit := { tree := exTree }

/-- the target `%cc_test` means the rule inside the assignment; only it gets the dependency -/
example : Proper exRun.tree ∧ Means none exRun.tree b!"%cc_test" [⟨1, [1]⟩] ∧
    (Buildozer.runTarget false exRun ⟨expandOf none [] b!"%cc_test", [exCmd].map ruleCommand⟩).stop = false ∧
    (Buildozer.runTarget false exRun ⟨expandOf none [] b!"%cc_test", [exCmd].map ruleCommand⟩).changed = true ∧
    attrOf b!"deps" ((Buildozer.runTarget false exRun ⟨expandOf none [] b!"%cc_test", [exCmd].map ruleCommand⟩).tree.callAt ⟨1, [1]⟩) ≠ .nil ∧
    attrOf b!"deps" ((Buildozer.runTarget false exRun ⟨expandOf none [] b!"%cc_test", [exCmd].map ruleCommand⟩).tree.callAt ⟨0, []⟩) = .nil := by
  have hp : Proper exRun.tree := ⟨by decide, by intro q hq; simp [exRun, exTree] at hq; rcases hq with rfl | rfl <;> decide⟩
  exact ⟨hp, ((C68_targets none hp b!"%cc_test" (by decide)).2 _).mp rfl, rfl, rfl, (fun h => by cases h), rfl⟩

/-- the target `x` means nothing -/
example : ¬ ∃ rs, Means none exRun.tree b!"x" rs := by
  rintro ⟨rs, h⟩
  have hp : Proper exRun.tree := ⟨by decide, by intro q hq; simp [exRun, exTree] at hq; rcases hq with rfl | rfl <;> decide⟩
  have := ((C68_targets none hp b!"x" (by decide)).2 rs).mpr h
  cases this

/-- no package declaration: one is added -/
example : ∃ t1, expandTargets none exRun.tree b!"__pkg__" = (t1, some [⟨2, []⟩]) ∧
    (Buildozer.runTarget false exRun ⟨expandOf none [] b!"__pkg__", [exCmd].map ruleCommand⟩).stop = false := ⟨_, rfl, rfl⟩

end Verif.Props.Targets
