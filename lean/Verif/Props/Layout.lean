import Verif.Model.Layout
import Verif.Proofs.WalkMut
/-
C53: the layout rewrites change only layout.
-/
namespace Verif.Props.Layout
open Verif Verif.Syntax Verif.Walk Verif.Rewrite

/-! ### Specification -/

/-- Forget the two layout marks that `multiplus` may touch: "break the line after this +" and "spread this list over
several lines". All other fields are kept. -/
def erasePlus : Expr → Expr
  | .binary c x p o l y => .binary c x p o (if o = b!"+" then false else l) y
  | .list c p l e _ => .list c p l e false
  | e => e

/-- Forget the layout mark of calls without arguments. -/
def eraseEmpty : Expr → Expr
  | .call c x p [] e a _ => .call c x p [] e a false
  | e => e

/-! ### collapseEmpty -/

theorem collapse_ok (v : Expr) (h : treeOk v) :
    mapE eraseEmpty (collapse v) = mapE eraseEmpty v ∧ leafKept v (collapse v) ∧ treeOk (collapse v) := by
  cases v with
  | call c x p l e a b =>
    cases l with
    | nil => exact ⟨rfl, trivial, (treeOk_iff _).mpr ⟨trivial, ((treeOk_iff _).mp h).2⟩⟩
    | cons y l => exact ⟨rfl, trivial, h⟩
  | ident => exact ⟨rfl, leafKept_refl _, h⟩
  | string => exact ⟨rfl, leafKept_refl _, h⟩
  | _ => exact ⟨rfl, trivial, h⟩

/-- **C53 (collapseEmpty).** Nothing but the "several lines" mark of calls without arguments changes. -/
theorem C53_collapse_only_layout (e : Expr) (h : treeOk e) : mapE eraseEmpty (collapseEmpty e) = mapE eraseEmpty e :=
  (editN_mapE eraseEmpty _ (fun _ v _ hv => collapse_ok v hv) (size e) () e [] h).1

/-- the mark is set on a call without arguments -/
def SpreadEmptyCall : Expr → Prop
  | .call _ _ _ [] _ _ true => True
  | _ => False

theorem not_spread_withSlots (v : Expr) (k : List Expr) (hk : k.length = (slots v).length) (h : ¬ SpreadEmptyCall v) :
    ¬ SpreadEmptyCall (withSlots v k) := by
  cases v with
  | call c x p l e a b =>
    match k, hk with
    | y :: l', hk =>
      simp only [withSlots]
      cases l' with
      | cons => simp [SpreadEmptyCall]
      | nil =>
        cases l with
        | cons z l => simp [slots] at hk
        | nil => cases b <;> simp_all [SpreadEmptyCall]
  | _ => unfold withSlots; split <;> simp_all [SpreadEmptyCall]

theorem collapse_not_spread (v : Expr) : ¬ SpreadEmptyCall (collapse v) := by
  cases v with
  | call c x p l e a b => cases l <;> simp [collapse, SpreadEmptyCall]
  | _ => simp [collapse, SpreadEmptyCall]

theorem collapse_slots (v : Expr) : slots (collapse v) = slots v := by
  cases v <;> rfl

theorem collapse_kept (v : Expr) (h : treeOk v) : leafKept v (collapse v) ∧ treeOk (collapse v) := (collapse_ok v h).2

/-- **C53 (collapseEmpty, complete).** Afterwards no call without arguments is spread over several lines. -/
theorem C53_collapse_complete (e : Expr) (h : treeOk e) : All (fun v => ¬ SpreadEmptyCall v) (collapseEmpty e) :=
  mutN_all (fun x _ => collapse x) (fun v _ hv => collapse_kept v hv) (fun v _ => collapse_slots v) _ (fun h => h)
    (fun v _ k hk => not_spread_withSlots _ k (by rw [hk, collapse_slots]) (collapse_not_spread v)) (size e) e []
    (Nat.le_refl _) h

theorem collapse_id (v : Expr) (h : ¬ SpreadEmptyCall v) : collapse v = v := by
  cases v with
  | call c x p l e a b => cases l <;> cases b <;> simp_all [collapse, SpreadEmptyCall]
  | _ => rfl

/-- **C53 (collapseEmpty, idempotent).** -/
theorem C53_collapse_idempotent (e : Expr) (h : treeOk e) : collapseEmpty (collapseEmpty e) = collapseEmpty e :=
  mutN_fix (fun x _ => collapse x) _ (fun v _ hv => collapse_id v hv) _ _ _
    (mutN_ok _ (fun v _ hv => collapse_kept v hv) (size e) e [] h).2 (C53_collapse_complete e h)

/-! ### fixMultilinePlus -/

theorem forceMulti_erase (v : Expr) : mapE erasePlus (forceMulti v).1 = mapE erasePlus v := by
  suffices ∀ n v, size v ≤ n → mapE erasePlus (forceMulti v).1 = mapE erasePlus v from this _ v (Nat.le_refl _)
  intro n
  induction n with
  | zero => intro v hv; have := size_pos v; omega
  | succ n ih =>
    intro v hv
    have h1 : ∀ l, sizeL l ≤ n → mapL erasePlus (forceMulti1 l).1 = mapL erasePlus l := by
      intro l hl
      match l, hl with
      | [], _ => rfl
      | [x], hl => simp only [forceMulti1, mapL, ih x (by simp only [sizeL] at hl; omega)]
      | x :: y :: l, _ => rfl
    cases v with
    | list c p l e force =>
      simp only [forceMulti]
      split
      · rfl
      · simp only [mapE, h1 l (by simp only [size] at hv; omega), erasePlus]
    | call c x p l e a b =>
      simp only [forceMulti, mapE, h1 l (by simp only [size] at hv; omega)]
    | _ => rfl

theorem plusStep_erase (prev : Expr) (l : Bool) (y : Expr) : mapE erasePlus (plusStep prev l y).2 = mapE erasePlus y := by
  unfold plusStep
  split
  · rfl
  · dsimp only
    split
    · exact forceMulti_erase y
    · split <;> exact forceMulti_erase y

theorem chainStep_erase (v : Expr) : mapE erasePlus (chainStep v) = mapE erasePlus v := by
  suffices ∀ n v, size v ≤ n → mapE erasePlus (chainStep v) = mapE erasePlus v from this _ v (Nat.le_refl _)
  intro n
  induction n with
  | zero => intro v hv; have := size_pos v; omega
  | succ n ih =>
    intro v hv
    cases v with
    | binary c x p o l y =>
      simp only [chainStep]
      split
      · rename_i ho
        simp only [mapE, ih x (by simp only [size] at hv; omega), plusStep_erase, erasePlus]
        rw [if_pos (by simpa using ho), if_pos (by simpa using ho)]
      · rfl
    | _ => rfl

/-- what the plus rewrite may do to a node -/
structure Kept (v w : Expr) : Prop where
  erase : mapE erasePlus w = mapE erasePlus v
  leaf : leafKept v w
  ok : treeOk v → treeOk w

theorem Kept.rfl' (v : Expr) : Kept v v := ⟨rfl, leafKept_refl v, id⟩

theorem forceMulti_ok (v : Expr) (h : treeOk v) : treeOk (forceMulti v).1 := by
  suffices ∀ n v, size v ≤ n → treeOk v → treeOk (forceMulti v).1 from this _ v (Nat.le_refl _) h
  intro n
  induction n with
  | zero => intro v hv; have := size_pos v; omega
  | succ n ih =>
    intro v hv h
    have h1 : ∀ l, sizeL l ≤ n → (∀ x ∈ l, treeOk x) → ∀ x ∈ (forceMulti1 l).1, treeOk x := by
      intro l hl hx
      match l, hl, hx with
      | [], _, hx => exact hx
      | [x], hl, hx =>
        simp only [forceMulti1, List.mem_singleton]
        rintro y rfl
        exact ih x (by simp only [sizeL] at hl; omega) (hx x (by simp))
      | x :: y :: l, _, hx => exact hx
    have hs := (treeOk_iff v).mp h
    cases v with
    | list c p l e force =>
      simp only [forceMulti]
      split
      · exact h
      · exact (treeOk_iff _).mpr ⟨trivial, h1 l (by simp only [size] at hv; omega) hs.2⟩
    | call c x p l e a b =>
      simp only [forceMulti]
      refine (treeOk_iff _).mpr ⟨trivial, ?_⟩
      intro y hy
      cases hy with
      | head => exact hs.2 _ (by simp [slots])
      | tail _ hy => exact h1 l (by simp only [size] at hv; omega) (fun x hx => hs.2 x (by simp [slots, hx])) y hy
    | _ => exact h

theorem plusStep_ok (prev : Expr) (l : Bool) (y : Expr) (h : treeOk y) : treeOk (plusStep prev l y).2 := by
  unfold plusStep
  split
  · exact h
  · dsimp only
    split
    · exact forceMulti_ok y h
    · split <;> exact forceMulti_ok y h

theorem chainStep_ok (v : Expr) (h : treeOk v) : treeOk (chainStep v) := by
  suffices ∀ n v, size v ≤ n → treeOk v → treeOk (chainStep v) from this _ v (Nat.le_refl _) h
  intro n
  induction n with
  | zero => intro v hv; have := size_pos v; omega
  | succ n ih =>
    intro v hv h
    have hs := (treeOk_iff v).mp h
    cases v with
    | binary c x p o l y =>
      simp only [chainStep]
      split
      · refine (treeOk_iff _).mpr ⟨trivial, ?_⟩
        intro z hz
        simp only [slots, List.mem_cons, List.not_mem_nil, or_false] at hz
        rcases hz with rfl | rfl
        · exact ih x (by simp only [size] at hv; omega) (hs.2 x (by simp [slots]))
        · exact plusStep_ok _ _ y (hs.2 y (by simp [slots]))
      · exact h
    | _ => exact h

theorem plusNode_kept (v : Expr) : Kept v (plusNode v) := by
  unfold plusNode
  split
  · rename_i h
    refine ⟨chainStep_erase v, ?_, chainStep_ok v⟩
    cases v <;> first | trivial | simp [isPlus] at h
  · exact Kept.rfl' v

theorem plusN_kept (n : Nat) : ∀ skip v, treeOk v → Kept v (plusN n skip v) := by
  induction n with
  | zero => intro skip v _; exact Kept.rfl' v
  | succ n ih =>
    intro skip v hok
    rw [plusN]
    split
    · exact Kept.rfl' v
    · generalize hv1 : (if skip = true then v else plusNode v) = v1
      have hk1 : Kept v v1 := by
        rw [← hv1]; split
        · exact Kept.rfl' v
        · exact plusNode_kept v
      dsimp only
      split
      · exact hk1
      · rename_i x rest hsl
        have ho := (treeOk_iff v1).mp (hk1.ok hok)
        rw [hsl] at ho
        have hall : Forall2 (fun a b => Kept a b) (slots v1)
            (plusN n (isPlus v1 && isPlus x) x :: rest.map (plusN n false)) := by
          rw [hsl]
          exact .cons (ih _ x (ho.2 x (by simp))) (forall2_map_right _ _ (fun y hy => ih _ y (ho.2 y (by simp [hy]))))
        have hfit := fits_of_kept v1 ho.1 _ (forall2_imp hall (fun a b h => h.leaf))
        refine ⟨?_, ?_, fun _ => (treeOk_iff _).mpr ⟨lenOk_withSlots _ _ hfit, ?_⟩⟩
        · rw [mapE_withSlots _ _ _ hfit (forall2_map (forall2_imp hall (fun a b h => h.erase))), hk1.erase]
        · have hl := hk1.leaf
          cases v with
          | ident m => obtain ⟨m', e⟩ := hl; rw [e] at hsl; simp [slots] at hsl
          | string m => obtain ⟨m', e⟩ := hl; rw [e] at hsl; simp [slots] at hsl
          | _ => trivial
        · rw [slots_withSlots _ _ hfit]
          rw [← hsl] at ho
          exact forall2_right (forall2_mem (forall2_imp hall (fun a b h => h.ok)) ho.2) (fun _ _ h => h)

/-- **C53 (multiplus).** Nothing but line breaks after `+` and the "several lines" marks of lists changes. -/
theorem C53_plus_only_layout (e : Expr) (h : treeOk e) : mapE erasePlus (fixMultilinePlus e) = mapE erasePlus e :=
  (plusN_kept (size e) false e h).erase

/-- there is a line break after a `+` -/
def BrokenPlus : Expr → Prop
  | .binary _ _ _ o l _ => o = b!"+" ∧ l = true
  | _ => False

theorem chainStep_fix (v : Expr) (h : All (fun v => ¬ BrokenPlus v) v) : chainStep v = v := by
  suffices ∀ n v, size v ≤ n → All (fun v => ¬ BrokenPlus v) v → chainStep v = v from this _ v (Nat.le_refl _) h
  intro n
  induction n with
  | zero => intro v hv; have := size_pos v; omega
  | succ n ih =>
    intro v hv h
    have hs := (All_iff _ v).mp h
    cases v with
    | binary c x p o l y =>
      simp only [chainStep]
      split
      · rename_i ho
        have hl : l = false := by
          have := hs.1
          simp only [BrokenPlus, not_and, Bool.not_eq_true] at this
          exact this (by simpa using ho)
        subst hl
        simp only [ih x (by simp only [size] at hv; omega) (hs.2 x (by simp [slots])), plusStep]
        rfl
      · rfl
    | _ => rfl

theorem plusN_fix (n : Nat) : ∀ skip v, treeOk v → All (fun v => ¬ BrokenPlus v) v → plusN n skip v = v := by
  induction n with
  | zero => intro skip v _ _; rfl
  | succ n ih =>
    intro skip v hok h
    rw [plusN]
    split
    · rfl
    · have : (if skip = true then v else plusNode v) = v := by
        split
        · rfl
        · unfold plusNode; split
          · exact chainStep_fix v h
          · rfl
      rw [this]
      dsimp only
      have ho := (treeOk_iff v).mp hok
      have hs := (All_iff _ v).mp h
      split
      · rfl
      · rename_i x rest hsl
        rw [hsl] at ho hs
        rw [ih _ x (ho.2 x (by simp)) (hs.2 x (by simp))]
        have : rest.map (plusN n false) = rest.map id :=
          List.map_congr_left (fun y hy => ih _ y (ho.2 y (by simp [hy])) (hs.2 y (by simp [hy])))
        rw [this, List.map_id, ← hsl, withSlots_slots v ho.1]

/-- **C53 (multiplus, only broken lines).** A tree without a line break after a `+` is left exactly as it is. -/
theorem C53_plus_unbroken (e : Expr) (h : treeOk e) (hb : All (fun v => ¬ BrokenPlus v) e) : fixMultilinePlus e = e :=
  plusN_fix (size e) false e h hb

/-! #### Examples -/

private def str (s : Bytes) : Expr := .string { value := s }
private def lst (force : Bool) (l : List Expr) : Expr := .list {} {} l {} force
private def plus (lb : Bool) (x y : Expr) : Expr := .binary {} x {} b!"+" lb y

/-- `["a"] +⏎ ["b"]` becomes `["a"] + [⏎"b"⏎]`; the chain is handled from left to right -/
example : fixMultilinePlus (.file {} [plus true (plus true (.ident { name := b!"x" }) (lst false [str b!"a"])) (.ident { name := b!"y" })])
    = .file {} [plus false (plus false (.ident { name := b!"x" }) (lst true [str b!"a"])) (.ident { name := b!"y" })] := rfl

example : collapseEmpty (.file {} [.call {} (.ident { name := b!"f" }) {} [] {} false true])
    = .file {} [.call {} (.ident { name := b!"f" }) {} [] {} false false] := rfl

example : treeOk (.file {} [.load {} {} { value := b!"//a" } [{ name := b!"f" }] [{ name := b!"f" }] {} false]) := by
  intro n
  rcases n with _ | _ | _ | n <;> simp [All.allN, slots, lenOk, interleave]

end Verif.Props.Layout
