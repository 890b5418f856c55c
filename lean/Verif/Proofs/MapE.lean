import Verif.Proofs.Walk
/-
A generic bottom-up map over the whole tree, used by specifications ("the tree with ... erased"), and its interaction with the
traversals.
-/
namespace Verif.Walk
open Verif Verif.Syntax

mutual
/-- Apply `g` to every node, children first. -/
def mapE (g : Expr → Expr) : Expr → Expr
  | .nil => g .nil
  | .commentBlock c p => g (.commentBlock c p)
  | .ident n => g (.ident n)
  | .typedIdent c i t => g (.typedIdent c i (mapE g t))
  | .branch c t p => g (.branch c t p)
  | .literal c p t => g (.literal c p t)
  | .string n => g (.string n)
  | .call c x p l e a b => g (.call c (mapE g x) p (mapL g l) e a b)
  | .dot c x p q n => g (.dot c (mapE g x) p q n)
  | .compr c u p b cl f e => g (.compr c u p (mapE g b) (mapL g cl) f e)
  | .forClause c p v q x => g (.forClause c p (mapE g v) q (mapE g x))
  | .ifClause c p x => g (.ifClause c p (mapE g x))
  | .keyValue c k p v => g (.keyValue c (mapE g k) p (mapE g v))
  | .dict c p l e f => g (.dict c p (mapL g l) e f)
  | .list c p l e f => g (.list c p (mapL g l) e f)
  | .set c p l e f => g (.set c p (mapL g l) e f)
  | .tuple c n p l e a b => g (.tuple c n p (mapL g l) e a b)
  | .unary c p o x => g (.unary c p o (mapE g x))
  | .binary c x p o l y => g (.binary c (mapE g x) p o l (mapE g y))
  | .assign c x p o l y => g (.assign c (mapE g x) p o l (mapE g y))
  | .paren c p x e f => g (.paren c p (mapE g x) e f)
  | .slice c x p f c1 t c2 s e => g (.slice c (mapE g x) p (mapE g f) c1 (mapE g t) c2 (mapE g s) e)
  | .index c x p y e => g (.index c (mapE g x) p (mapE g y) e)
  | .lambda c p ps b => g (.lambda c p (mapL g ps) (mapL g b))
  | .cond c t p te q e => g (.cond c (mapE g t) p (mapE g te) q (mapE g e))
  | .load c p m f t r fc => g (.load c p (stringOf (g (.string m))) (f.map fun i => identOf (g (.ident i)))
      (t.map fun i => identOf (g (.ident i))) r fc)
  | .defS c p n ps b q a d t => g (.defS c p n (mapL g ps) (mapL g b) q a d (mapE g t))
  | .returnS c p r => g (.returnS c p (mapE g r))
  | .forS c p v x b => g (.forS c p (mapE g v) (mapE g x) (mapL g b))
  | .ifS c p x t e f => g (.ifS c p (mapE g x) (mapL g t) e (mapL g f))
  | .file c l => g (.file c (mapL g l))
def mapL (g : Expr → Expr) : List Expr → List Expr
  | [] => []
  | x :: l => mapE g x :: mapL g l
end

theorem mapL_eq (g : Expr → Expr) (l : List Expr) : mapL g l = l.map (mapE g) := by
  induction l with
  | nil => rfl
  | cons x l ih => rw [mapL, ih]; rfl

/-- `k` may be written back into the slots of `v`: the right number, and names stay names in a load -/
def fits (v : Expr) (k : List Expr) : Prop :=
  k.length = (slots v).length ∧
  match v with
  | .load _ _ _ f t _ _ => f.length = t.length ∧ ∃ m' f' t', k = .string m' :: interleave f' t' ∧
      f'.length = f.length ∧ t'.length = t.length
  | _ => True

theorem interleave_map (g : Expr → Expr) (f t f' t' : List IdentN) (hf : f'.length = f.length) (ht : t'.length = t.length)
    (hl : f.length = t.length) (h : (interleave f' t').map (mapE g) = (interleave f t).map (mapE g)) :
    f'.map (fun i => g (.ident i)) = f.map (fun i => g (.ident i)) ∧
    t'.map (fun i => g (.ident i)) = t.map (fun i => g (.ident i)) := by
  induction f generalizing t f' t' with
  | nil =>
    cases t with
    | nil =>
      cases f' <;> cases t' <;> simp_all
    | cons _ _ => simp at hl
  | cons a f ih =>
    cases t with
    | nil => simp at hl
    | cons b t =>
      cases f' with
      | nil => simp at hf
      | cons a' f' =>
        cases t' with
        | nil => simp at ht
        | cons b' t' =>
          simp only [interleave, List.map_cons, List.cons.injEq, mapE] at h
          have := ih t f' t' (by simpa using hf) (by simpa using ht) (by simpa using hl) h.2.2
          simp [h.1, h.2.1, this.1, this.2]

theorem split_map {α β} (h : α → β) (a b k : List α) (hk : k.map h = (a ++ b).map h) :
    (k.take a.length).map h = a.map h ∧ (k.drop a.length).map h = b.map h := by
  rw [List.map_take, List.map_drop, hk, List.map_append]
  constructor
  · rw [List.take_left' (by simp)]
  · rw [List.drop_left' (by simp)]

/-- Writing back slots with the same images changes nothing under `mapE`. -/
theorem mapE_withSlots (g : Expr → Expr) (v : Expr) (k : List Expr) (hfit : fits v k)
    (h : k.map (mapE g) = (slots v).map (mapE g)) : mapE g (withSlots v k) = mapE g v := by
  have hlen := hfit.1
  cases v with
  | nil => simp [slots] at hlen; subst hlen; rfl
  | commentBlock => simp [slots] at hlen; subst hlen; rfl
  | ident => simp [slots] at hlen; subst hlen; rfl
  | typedIdent => simp [slots] at hlen; subst hlen; rfl
  | branch => simp [slots] at hlen; subst hlen; rfl
  | literal => simp [slots] at hlen; subst hlen; rfl
  | string => simp [slots] at hlen; subst hlen; rfl
  | file c l => simp only [withSlots, mapE, mapL_eq, slots] at *; rw [h]
  | list => simp only [withSlots, mapE, mapL_eq, slots] at *; rw [h]
  | set => simp only [withSlots, mapE, mapL_eq, slots] at *; rw [h]
  | dict => simp only [withSlots, mapE, mapL_eq, slots] at *; rw [h]
  | tuple => simp only [withSlots, mapE, mapL_eq, slots] at *; rw [h]
  | lambda c p ps b =>
    simp only [withSlots, mapE, mapL_eq, slots] at *
    have := split_map _ _ _ _ h
    rw [this.1, this.2]
  | defS c p n ps b q a d t =>
    simp only [withSlots, mapE, mapL_eq, slots] at *
    have := split_map _ _ _ _ h
    rw [this.1, this.2]
  | dot => match k, h with | [x], h => simp [slots] at h; simp only [withSlots, mapE, h]
  | paren => match k, h with | [x], h => simp [slots] at h; simp only [withSlots, mapE, h]
  | unary => match k, h with | [x], h => simp [slots] at h; simp only [withSlots, mapE, h]
  | ifClause => match k, h with | [x], h => simp [slots] at h; simp only [withSlots, mapE, h]
  | returnS => match k, h with | [x], h => simp [slots] at h; simp only [withSlots, mapE, h]
  | index => match k, h with | [x, y], h => simp [slots] at h; simp only [withSlots, mapE, h.1, h.2]
  | keyValue => match k, h with | [x, y], h => simp [slots] at h; simp only [withSlots, mapE, h.1, h.2]
  | binary => match k, h with | [x, y], h => simp [slots] at h; simp only [withSlots, mapE, h.1, h.2]
  | assign => match k, h with | [x, y], h => simp [slots] at h; simp only [withSlots, mapE, h.1, h.2]
  | forClause => match k, h with | [x, y], h => simp [slots] at h; simp only [withSlots, mapE, h.1, h.2]
  | cond => match k, h with | [x, y, z], h => simp [slots] at h; simp only [withSlots, mapE, h.1, h.2.1, h.2.2]
  | slice =>
    match k, h with
    | [x, y, z, w], h => simp [slots] at h; simp only [withSlots, mapE, h.1, h.2.1, h.2.2.1, h.2.2.2]
  | call =>
    match k, h with
    | x :: l, h => simp [slots] at h; simp only [withSlots, mapE, mapL_eq, h.1]; rw [← List.map_inj_left.mpr (fun _ _ => rfl), h.2]
  | compr =>
    match k, h with
    | x :: l, h => simp [slots] at h; simp only [withSlots, mapE, mapL_eq, h.1, h.2]
  | forS =>
    match k, h with
    | x :: y :: l, h => simp [slots] at h; simp only [withSlots, mapE, mapL_eq, h.1, h.2.1, h.2.2]
  | ifS c p x t e f =>
    match k, h with
    | y :: l, h =>
      simp only [slots, List.map_cons, List.cons.injEq] at h
      have := split_map _ _ _ _ h.2
      simp only [withSlots, mapE, mapL_eq, h.1]
      rw [this.1, this.2]
  | load c p m f t r fc =>
    obtain ⟨hl, m', f', t', rfl, hf', ht'⟩ := hfit.2
    simp only [slots, List.map_cons, List.cons.injEq, mapE] at h
    have := interleave_map g f t f' t' hf' ht' hl h.2
    simp only [withSlots, mapE, stringOf, evens_interleave f' t' (by omega), odds_interleave f' t' (by omega), h.1]
    have e1 : f'.map (fun i => identOf (g (.ident i))) = f.map (fun i => identOf (g (.ident i))) := by
      have := congrArg (List.map identOf) this.1
      rw [List.map_map, List.map_map] at this; exact this
    have e2 : t'.map (fun i => identOf (g (.ident i))) = t.map (fun i => identOf (g (.ident i))) := by
      have := congrArg (List.map identOf) this.2
      rw [List.map_map, List.map_map] at this; exact this
    rw [e1, e2]

/-- names stay names, string literals stay string literals, loads keep their shape: what a callback must respect -/
def leafKept (v v' : Expr) : Prop :=
  match v with
  | .ident _ => ∃ n, v' = .ident n
  | .string _ => ∃ n, v' = .string n
  | _ => True

theorem leafKept_refl (v : Expr) : leafKept v v := by cases v <;> simp [leafKept]

theorem withSlots_leaf (v : Expr) (k : List Expr) (h : slots v = []) (hk : k = []) : withSlots v k = v := by
  subst hk
  cases v <;> simp [slots] at h <;> simp_all [withSlots]

/-- elementwise relation of two lists of the same length -/
inductive Forall2 {α β : Type} (R : α → β → Prop) : List α → List β → Prop
  | nil : Forall2 R [] []
  | cons {a b l k} : R a b → Forall2 R l k → Forall2 R (a :: l) (b :: k)

/-- the list of edited slots -/
theorem editFold_map {σ} (f : σ → Expr → List Expr → σ × Expr × Bool) (n : Nat) (stk : List Expr) (R : Expr → Expr → Prop)
    (hR : ∀ x, R x x) (l : List Expr) : ∀ (ws : List Bool), ws.length = l.length →
    (∀ x ∈ l, ∀ s, R x (editN f n s x stk).2.1) → ∀ (s : σ) (acc : List Expr),
    ∃ k, ((l.zip ws).foldl (fun (acc : σ × List Expr) xw =>
      ((editN f n acc.1 xw.1 stk).1,
        acc.2 ++ [if xw.2 && (editN f n acc.1 xw.1 stk).2.2 then xw.1 else (editN f n acc.1 xw.1 stk).2.1])) (s, acc)).2
      = acc ++ k ∧ Forall2 R l k := by
  induction l with
  | nil => intro ws _ _ s acc; exact ⟨[], by simp, .nil⟩
  | cons x l ih =>
    intro ws hw h s acc
    cases ws with
    | nil => simp at hw
    | cons w ws =>
      simp only [List.zip_cons_cons, List.foldl_cons]
      obtain ⟨k, hk, hf⟩ := ih ws (by simpa using hw) (fun y hy s => h y (by simp [hy]) s) (editN f n s x stk).1
        (acc ++ [if w && (editN f n s x stk).2.2 then x else (editN f n s x stk).2.1])
      refine ⟨_ :: k, by rw [hk, List.append_assoc]; rfl, .cons ?_ hf⟩
      split
      · exact hR x
      · exact h x (by simp) s

theorem forall2_length {α β : Type} {R : α → β → Prop} {l : List α} {k : List β} (h : Forall2 R l k) : k.length = l.length := by
  induction h with
  | nil => rfl
  | cons _ _ ih => simp [ih]

theorem forall2_imp {α β : Type} {R S : α → β → Prop} {l : List α} {k : List β} (h : Forall2 R l k)
    (hi : ∀ a b, R a b → S a b) : Forall2 S l k := by
  induction h with
  | nil => exact .nil
  | cons h1 _ ih => exact .cons (hi _ _ h1) ih

theorem forall2_map {g : Expr → Expr} {l k : List Expr} (h : Forall2 (fun x y => g y = g x) l k) :
    k.map g = l.map g := by
  induction h with
  | nil => rfl
  | cons h _ ih => simp [h, ih]

theorem forall2_mem {α β : Type} {P : α → Prop} {R : α → β → Prop} {l : List α} {k : List β}
    (h : Forall2 (fun x y => P x → R x y) l k) (hp : ∀ x ∈ l, P x) : Forall2 R l k := by
  induction h with
  | nil => exact .nil
  | cons h _ ih => exact .cons (h (hp _ (by simp))) (ih (fun x hx => hp x (by simp [hx])))

theorem forall2_right {α β : Type} {R : α → β → Prop} {P : β → Prop} {l : List α} {k : List β} (h : Forall2 R l k)
    (hi : ∀ a b, R a b → P b) : ∀ y ∈ k, P y := by
  induction h with
  | nil => simp
  | cons h1 _ ih => intro y hy; cases hy with
    | head => exact hi _ _ h1
    | tail _ hy => exact ih y hy

theorem interleave_kept (f t : List IdentN) (hl : f.length = t.length) (k : List Expr)
    (h : Forall2 leafKept (interleave f t) k) :
    ∃ f' t', k = interleave f' t' ∧ f'.length = f.length ∧ t'.length = t.length := by
  induction f generalizing t k with
  | nil =>
    cases t with
    | nil => cases h; exact ⟨[], [], rfl, rfl, rfl⟩
    | cons _ _ => simp at hl
  | cons a f ih =>
    cases t with
    | nil => simp at hl
    | cons b t =>
      simp only [interleave] at h
      cases h with
      | cons h1 h =>
        cases h with
        | cons h2 h =>
          obtain ⟨f', t', rfl, e1, e2⟩ := ih t (by simpa using hl) _ h
          obtain ⟨n1, rfl⟩ := h1
          obtain ⟨n2, rfl⟩ := h2
          exact ⟨n1 :: f', n2 :: t', rfl, by simp [e1], by simp [e2]⟩

theorem fits_of_kept (v : Expr) (hv : lenOk v) (k : List Expr) (h : Forall2 leafKept (slots v) k) : fits v k := by
  refine ⟨forall2_length h, ?_⟩
  cases v with
  | load c p m f t r fc =>
    simp only [slots] at h
    cases h with
    | cons h1 h =>
      obtain ⟨f', t', rfl, e1, e2⟩ := interleave_kept f t hv _ h
      obtain ⟨m', rfl⟩ := h1
      exact ⟨hv, m', f', t', rfl, e1, e2⟩
  | _ => trivial

/-- `P` holds at every node the traversals reach. -/
def All (P : Expr → Prop) : Expr → Prop := fun v => ∀ n, allN n v
where allN : Nat → Expr → Prop
  | 0, _ => True
  | n + 1, v => P v ∧ ∀ x ∈ slots v, allN n x

theorem All_iff (P : Expr → Prop) (v : Expr) : All P v ↔ P v ∧ ∀ x ∈ slots v, All P x := by
  constructor
  · intro h
    exact ⟨(h 1).1, fun x hx n => (h (n+1)).2 x hx⟩
  · rintro ⟨h1, h2⟩ n
    cases n with
    | zero => trivial
    | succ n => exact ⟨h1, fun x hx => h2 x hx n⟩

/-- A tree all of whose reachable loads have as many local as original names. -/
def treeOk : Expr → Prop := All lenOk

theorem treeOk_iff (v : Expr) : treeOk v ↔ lenOk v ∧ ∀ x ∈ slots v, treeOk x := All_iff _ v

theorem slots_withSlots (v : Expr) (k : List Expr) (hfit : fits v k) : slots (withSlots v k) = k := by
  have hlen := hfit.1
  cases v with
  | nil => simp [slots] at hlen; subst hlen; rfl
  | commentBlock => simp [slots] at hlen; subst hlen; rfl
  | ident => simp [slots] at hlen; subst hlen; rfl
  | typedIdent => simp [slots] at hlen; subst hlen; rfl
  | branch => simp [slots] at hlen; subst hlen; rfl
  | literal => simp [slots] at hlen; subst hlen; rfl
  | string => simp [slots] at hlen; subst hlen; rfl
  | file c l => rfl
  | list => rfl
  | set => rfl
  | dict => rfl
  | tuple => rfl
  | lambda c p ps b => simp only [withSlots, slots, List.take_append_drop]
  | defS c p n ps b q a d t => simp only [withSlots, slots, List.take_append_drop]
  | dot => match k, hlen with | [x], h => rfl
  | paren => match k, hlen with | [x], h => rfl
  | unary => match k, hlen with | [x], h => rfl
  | ifClause => match k, hlen with | [x], h => rfl
  | returnS => match k, hlen with | [x], h => rfl
  | index => match k, hlen with | [x, y], h => rfl
  | keyValue => match k, hlen with | [x, y], h => rfl
  | binary => match k, hlen with | [x, y], h => rfl
  | assign => match k, hlen with | [x, y], h => rfl
  | forClause => match k, hlen with | [x, y], h => rfl
  | cond => match k, hlen with | [x, y, z], h => rfl
  | slice => match k, hlen with | [x, y, z, w], h => rfl
  | call => match k, hlen with | x :: l, h => rfl
  | compr => match k, hlen with | x :: l, h => rfl
  | forS => match k, hlen with | x :: y :: l, h => rfl
  | ifS c p x t e f =>
    match k, hlen with
    | y :: l, h => simp only [withSlots, slots, List.take_append_drop]
  | load c p m f t r fc =>
    obtain ⟨hl, m', f', t', rfl, hf', ht'⟩ := hfit.2
    simp only [withSlots, stringOf, evens_interleave f' t' (by omega), odds_interleave f' t' (by omega), slots]

theorem lenOk_withSlots (v : Expr) (k : List Expr) (hfit : fits v k) : lenOk (withSlots v k) := by
  cases v with
  | load c p m f t r fc =>
    obtain ⟨hl, m', f', t', rfl, hf', ht'⟩ := hfit.2
    simp only [withSlots, evens_interleave f' t' (by omega), odds_interleave f' t' (by omega), lenOk]
    omega
  | _ => unfold withSlots; split <;> simp_all [lenOk]

theorem withSlots_isNil (v : Expr) (k : List Expr) : (withSlots v k).isNil = v.isNil := by
  cases v <;> (unfold withSlots; split <;> simp_all [Expr.isNil]) 

/-- **Generic.** If a callback changes no node as far as `mapE g` can see (and keeps names names), then a whole edit
changes nothing as far as `mapE g` can see. -/
theorem editN_mapE {σ} (g : Expr → Expr) (f : σ → Expr → List Expr → σ × Expr × Bool)
    (hf : ∀ s v stk, treeOk v → mapE g (f s v stk).2.1 = mapE g v ∧ leafKept v (f s v stk).2.1 ∧ treeOk (f s v stk).2.1) :
    ∀ n s v stk, treeOk v →
      mapE g (editN f n s v stk).2.1 = mapE g v ∧ leafKept v (editN f n s v stk).2.1 ∧
      treeOk (editN f n s v stk).2.1 := by
  intro n
  induction n with
  | zero => intro s v stk h; exact ⟨rfl, leafKept_refl v, h⟩
  | succ n ih =>
    intro s v stk hok
    rw [editN]
    split
    · exact ⟨rfl, leafKept_refl v, hok⟩
    · dsimp only
      obtain ⟨h1, h2, h3⟩ := hf s v stk hok
      generalize hv1 : (f s v stk).2.1 = v1 at h1 h2 h3 ⊢
      have hch := ((treeOk_iff v1).mp h3)
      obtain ⟨k, hk, hall⟩ := editFold_map f n (stk ++ [v1]) (fun x y => treeOk x → mapE g y = mapE g x ∧ leafKept x y ∧ treeOk y)
        (fun x h => ⟨rfl, leafKept_refl x, h⟩) (slots v1) (weakSlots v1) (weakSlots_length v1)
        (fun x hx s h => ih s x _ h) (f s v stk).1 []
      simp only [List.nil_append] at hk
      simp only [hk]
      have hall := forall2_mem hall (P := treeOk) hch.2
      have hfit : fits v1 k := fits_of_kept v1 hch.1 k (forall2_imp hall (fun a b h => h.2.1))
      have hm : k.map (mapE g) = (slots v1).map (mapE g) := forall2_map (forall2_imp hall (fun a b h => h.1))
      refine ⟨by rw [mapE_withSlots g v1 k hfit hm, h1], ?_, (treeOk_iff _).mpr ⟨lenOk_withSlots v1 k hfit, ?_⟩⟩
      rotate_left
      · rw [slots_withSlots v1 k hfit]
        exact forall2_right hall (fun a b h => h.2.2)
      cases v with
      | ident n =>
        obtain ⟨n', hn⟩ := h2
        rw [hn] at hall ⊢
        simp only [slots] at hall
        cases hall
        exact ⟨n', rfl⟩
      | string n =>
        obtain ⟨n', hn⟩ := h2
        rw [hn] at hall ⊢
        simp only [slots] at hall
        cases hall
        exact ⟨n', rfl⟩
      | _ => trivial

end Verif.Walk
