import Verif.Props.Layout
/-
C53, continued: exactly when `multiplus` leaves a line break after a `+` alone, and which breaks it removes.
-/
namespace Verif.Props.Plus
open Verif Verif.Syntax Verif.Walk Verif.Rewrite Verif.Props.Layout

/-! ### Specification -/

/-- a list, possibly as the only argument of calls: `[…]`, `glob([…])`, `sorted(glob([…]))` -/
inductive ListLike : Expr → Prop
  | list (c p l e f) : ListLike (.list c p l e f)
  | call (c x p a e k f) : ListLike a → ListLike (.call c x p [a] e k f)

/-- an operand that is printed over several lines already: a list or call marked so, a list of two or more elements, a call
of two or more arguments not written compactly, or a call whose only argument is such an operand -/
inductive Spread : Expr → Prop
  | list (c p l e f) : f = true ∨ 2 ≤ l.length → Spread (.list c p l e f)
  | call (c x p l e k f) : f = true ∨ (2 ≤ l.length ∧ k = false) → Spread (.call c x p l e k f)
  | arg (c x p a e k f) : Spread a → Spread (.call c x p [a] e k f)

/-- an operand of a `+` is a list -/
def ListOperand : Expr → Prop
  | .binary _ x _ o _ y => o = b!"+" ∧ (ListLike x ∨ ListLike y)
  | _ => False

/-- there is a line break between a `+` and a list to its right -/
def BrokenBeforeList : Expr → Prop
  | .binary _ _ _ o l y => o = b!"+" ∧ l = true ∧ ListLike y
  | _ => False

/-- the operand directly to the left of the `+` whose left side is `x` (sums group to the left) -/
def leftOf : Expr → Expr
  | .binary c x p o l y => if o = b!"+" then y else .binary c x p o l y
  | e => e

/-- the line break after a `+` is of no use: a list follows, which could be spread instead, or the operand before it is
spread over several lines already -/
def UselessBreak : Expr → Prop
  | .binary _ x _ o l y => o = b!"+" ∧ l = true ∧ (ListLike y ∨ Spread (leftOf x))
  | _ => False

/-! ### The tests of the code -/

theorem isListP_iff (e : Expr) : isListP e = true ↔ ListLike e := by
  suffices ∀ n e, size e ≤ n → (isListP e = true ↔ ListLike e) from this _ e (Nat.le_refl _)
  intro n
  induction n with
  | zero => intro v hv; have := size_pos v; omega
  | succ n ih =>
    intro v hv
    constructor
    · intro h
      cases v with
      | list c p l e f => exact .list ..
      | call c x p l e k f =>
        match l, hv, h with
        | [a], hv, h => exact .call _ _ _ _ _ _ _ ((ih a (by simp only [size, sizeL] at hv; omega)).mp h)
        | [], _, h => exact nomatch h
        | _ :: _ :: _, _, h => exact nomatch h
      | _ => exact nomatch h
    · intro h
      cases h with
      | list => rfl
      | call c x p a e k f h => exact (ih a (by simp only [size, sizeL] at hv; omega)).mpr h

theorem isMultiLineP_iff (e : Expr) : isMultiLineP e = true ↔ Spread e := by
  suffices ∀ n e, size e ≤ n → (isMultiLineP e = true ↔ Spread e) from this _ e (Nat.le_refl _)
  intro n
  induction n with
  | zero => intro v hv; have := size_pos v; omega
  | succ n ih =>
    intro v hv
    constructor
    · intro h
      cases v with
      | list c p l e f =>
        refine .list _ _ _ _ _ ?_
        simp only [isMultiLineP, Bool.or_eq_true, decide_eq_true_eq] at h
        exact h
      | call c x p l e k f =>
        simp only [isMultiLineP, Bool.or_eq_true, Bool.and_eq_true, decide_eq_true_eq, Bool.not_eq_true'] at h
        rcases h with h | h
        · exact .call _ _ _ _ _ _ _ h
        · match l, hv, h with
          | [a], hv, h => exact .arg _ _ _ _ _ _ _ ((ih a (by simp only [size, sizeL] at hv; omega)).mp h)
          | [], _, h => exact nomatch h
          | _ :: _ :: _, _, h => exact nomatch h
      | _ => exact nomatch h
    · intro h
      cases h with
      | list c p l e f h =>
        simp only [isMultiLineP, Bool.or_eq_true, decide_eq_true_eq]
        exact h
      | call c x p l e k f h =>
        simp only [isMultiLineP, Bool.or_eq_true, Bool.and_eq_true, decide_eq_true_eq, Bool.not_eq_true']
        exact .inl h
      | arg c x p a e k f h =>
        have := (ih a (by simp only [size, sizeL] at hv; omega)).mpr h
        simp only [isMultiLineP, isMultiLineP1, this, Bool.or_true]

theorem forceMulti_list (e : Expr) : (forceMulti e).2 = isListP e ∧ ((forceMulti e).2 = false → (forceMulti e).1 = e) := by
  suffices ∀ n e, size e ≤ n → ((forceMulti e).2 = isListP e ∧ ((forceMulti e).2 = false → (forceMulti e).1 = e)) from
    this _ e (Nat.le_refl _)
  intro n
  induction n with
  | zero => intro v hv; have := size_pos v; omega
  | succ n ih =>
    intro v hv
    cases v with
    | list c p l e f =>
      simp only [forceMulti]
      split <;> exact ⟨rfl, (fun h => nomatch h)⟩
    | call c x p l e k f =>
      match l, hv with
      | [a], hv =>
        have := ih a (by simp only [size, sizeL] at hv; omega)
        refine ⟨this.1, fun h => ?_⟩
        simp only [forceMulti, forceMulti1]
        rw [this.2 h]
      | [], _ => exact ⟨rfl, fun _ => rfl⟩
      | _ :: _ :: _, _ => exact ⟨rfl, fun _ => rfl⟩
    | _ => exact ⟨rfl, fun _ => rfl⟩

/-! ### When nothing happens -/

theorem chainHasList_none (v : Expr) (h : All (fun v => ¬ ListOperand v) v) : chainHasList v = false := by
  suffices ∀ n v, size v ≤ n → All (fun v => ¬ ListOperand v) v → chainHasList v = false from this _ v (Nat.le_refl _) h
  intro n
  induction n with
  | zero => intro v hv; have := size_pos v; omega
  | succ n ih =>
    intro v hv h
    have hs := (All_iff _ v).mp h
    cases v with
    | binary c x p o l y =>
      simp only [chainHasList]
      split
      · rename_i ho
        have hb := hs.1
        simp only [ListOperand, not_and, not_or] at hb
        have hb := hb (by simpa using ho)
        have hy : isListP y = false := Bool.eq_false_iff.mpr (fun hh => hb.2 ((isListP_iff y).mp hh))
        have hx : isListP x = false := Bool.eq_false_iff.mpr (fun hh => hb.1 ((isListP_iff x).mp hh))
        rw [hy, Bool.false_or]
        split
        · exact ih x (by simp only [size] at hv; omega) (hs.2 x (by simp [slots]))
        · exact hx
      · rfl
    | _ => rfl

theorem chainLast_eq (e : Expr) : chainLast e = leftOf e := by
  cases e with
  | binary c x p o l y => by_cases h : o = b!"+" <;> simp [chainLast, leftOf, h]
  | _ => rfl

theorem chainStep_useful (v : Expr) (h : All (fun v => ¬ UselessBreak v) v) : chainStep v = v := by
  suffices ∀ n v, size v ≤ n → All (fun v => ¬ UselessBreak v) v → chainStep v = v from this _ v (Nat.le_refl _) h
  intro n
  induction n with
  | zero => intro v hv; have := size_pos v; omega
  | succ n ih =>
    intro v hv h
    have hs := (All_iff _ v).mp h
    cases v with
    | binary c x p o l y =>
      simp only [chainStep]
      split
      · rename_i ho
        have hx := ih x (by simp only [size] at hv; omega) (hs.2 x (by simp [slots]))
        simp only [hx]
        have hb := hs.1
        simp only [UselessBreak, not_and, not_or] at hb
        have hb := hb (by simpa using ho)
        cases l with
        | false => rfl
        | true =>
          have hb := hb rfl
          have hf := forceMulti_list y
          have hy : isListP y = false := Bool.eq_false_iff.mpr (fun hh => hb.1 ((isListP_iff y).mp hh))
          rw [hy] at hf
          have hm : isMultiLineP (chainLast x) = false := by
            rw [chainLast_eq]
            exact Bool.eq_false_iff.mpr (fun hh => hb.2 ((isMultiLineP_iff _).mp hh))
          simp only [plusStep, hf.1, hm, hf.2 hf.1, Bool.not_true, Bool.false_eq_true, if_false]
      · rfl
    | _ => rfl

theorem plusN_same (P : Expr → Prop) (hP : ∀ v, All P v → plusNode v = v) (n : Nat) :
    ∀ skip v, treeOk v → All P v → plusN n skip v = v := by
  induction n with
  | zero => intro skip v _ _; rfl
  | succ n ih =>
    intro skip v hok h
    rw [plusN]
    split
    · rfl
    · have : (if skip = true then v else plusNode v) = v := by
        split
        · rfl
        · exact hP v h
      rw [this]
      dsimp only
      have ho := (treeOk_iff v).mp hok
      have hs := (All_iff _ v).mp h
      split
      · rfl
      · rename_i x rest hsl
        rw [hsl] at ho hs
        rw [ih _ x (ho.2 x (by simp)) (hs.2 x (by simp))]
        have : rest.map (plusN n false) = rest.map id :=
          List.map_congr_left (fun y hy => ih _ y (ho.2 y (by simp [hy])) (hs.2 y (by simp [hy])))
        rw [this, List.map_id, ← hsl, withSlots_slots v ho.1]

/-- **C53 (multiplus, sums without lists).** A tree in which no operand of a `+` is a list (or a call around one) is left
exactly as it is, whatever its line breaks. -/
theorem C53_plus_no_list (e : Expr) (h : treeOk e) (hb : All (fun v => ¬ ListOperand v) e) : fixMultilinePlus e = e := by
  refine plusN_same _ (fun v hv => ?_) (size e) false e h hb
  simp only [plusNode, chainHasList_none v hv, Bool.and_false, Bool.false_eq_true, if_false]

/-- **C53 (multiplus, only useless breaks).** A tree whose line breaks after `+` all have a use — what follows is not a list,
and what precedes is not spread over several lines — is left exactly as it is. -/
theorem C53_plus_useful (e : Expr) (h : treeOk e) (hb : All (fun v => ¬ UselessBreak v) e) : fixMultilinePlus e = e := by
  refine plusN_same _ (fun v hv => ?_) (size e) false e h hb
  unfold plusNode
  split
  · exact chainStep_useful v hv
  · rfl

/-! ### What is left afterwards -/

theorem size_erase (v : Expr) : size (mapE erasePlus v) = size v := by
  suffices ∀ n v, size v ≤ n → size (mapE erasePlus v) = size v from this _ v (Nat.le_refl _)
  intro n
  induction n with
  | zero => intro v hv; have := size_pos v; omega
  | succ n ih =>
    intro v hv
    have hL : ∀ l, sizeL l ≤ n → sizeL (mapL erasePlus l) = sizeL l := by
      intro l
      induction l with
      | nil => intro _; rfl
      | cons x l ihl =>
        intro hl
        simp only [sizeL] at hl
        simp only [mapL, sizeL, ih x (by omega), ihl (by omega)]
    cases v <;> simp only [size] at hv <;> simp only [mapE, erasePlus, size, List.length_map] <;>
      first
      | rfl
      | (rw [ih _ (by omega), ih _ (by omega), ih _ (by omega), ih _ (by omega)])
      | (rw [ih _ (by omega), ih _ (by omega), ih _ (by omega)])
      | (rw [ih _ (by omega), hL _ (by omega), hL _ (by omega)])
      | (rw [hL _ (by omega), hL _ (by omega), ih _ (by omega)])
      | (rw [ih _ (by omega), ih _ (by omega), hL _ (by omega)])
      | (rw [ih _ (by omega), ih _ (by omega)])
      | (rw [ih _ (by omega), hL _ (by omega)])
      | (rw [hL _ (by omega), hL _ (by omega)])
      | (rw [ih _ (by omega)])
      | (rw [hL _ (by omega)])

theorem isListP_erase (v : Expr) : isListP (mapE erasePlus v) = isListP v := by
  suffices ∀ n v, size v ≤ n → isListP (mapE erasePlus v) = isListP v from this _ v (Nat.le_refl _)
  intro n
  induction n with
  | zero => intro v hv; have := size_pos v; omega
  | succ n ih =>
    intro v hv
    cases v with
    | call c x p l e k f =>
      match l, hv with
      | [a], hv => exact ih a (by simp only [size, sizeL] at hv; omega)
      | [], _ => rfl
      | _ :: _ :: _, _ => rfl
    | _ => rfl

theorem kept_size {v w : Expr} (h : Kept v w) : size w = size v := by
  rw [← size_erase w, h.erase, size_erase]

theorem kept_list {v w : Expr} (h : Kept v w) : isListP w = isListP v := by
  rw [← isListP_erase w, h.erase, isListP_erase]

/-- no useless break before a list along the left side of a sum -/
def chainOk : Expr → Prop
  | .binary _ x _ o l y => o = b!"+" → (l = true → isListP y = false) ∧ chainOk x
  | _ => True

theorem chainOk_step (v : Expr) : chainOk (chainStep v) := by
  suffices ∀ n v, size v ≤ n → chainOk (chainStep v) from this _ v (Nat.le_refl _)
  intro n
  induction n with
  | zero => intro v hv; have := size_pos v; omega
  | succ n ih =>
    intro v hv
    cases v with
    | binary c x p o l y =>
      simp only [chainStep]
      split
      · refine fun _ => ⟨fun h => ?_, ih x (by simp only [size] at hv; omega)⟩
        have hf := forceMulti_list y
        have hk : isListP (forceMulti y).1 = isListP y := by
          rw [← isListP_erase, forceMulti_erase, isListP_erase]
        revert h
        unfold plusStep
        split
        · intro h; rename_i h'; dsimp only at h; rw [h] at h'; exact nomatch h'
        · dsimp only
          split
          · exact fun h => nomatch h
          · rename_i hn
            split
            · exact fun h => nomatch h
            · intro _
              rw [hk, ← hf.1]
              exact Bool.eq_false_iff.mpr hn
      · rename_i ho
        exact fun h => absurd (by simpa using h) ho
    | _ => exact trivial

theorem chainOk_none (v : Expr) (h : chainHasList v = false) : chainOk v := by
  suffices ∀ n v, size v ≤ n → chainHasList v = false → chainOk v from this _ v (Nat.le_refl _) h
  intro n
  induction n with
  | zero => intro v hv; have := size_pos v; omega
  | succ n ih =>
    intro v hv h
    cases v with
    | binary c x p o l y =>
      intro ho
      subst ho
      simp only [chainHasList, beq_self_eq_true, if_true, Bool.or_eq_false_iff] at h
      refine ⟨fun _ => h.1, ?_⟩
      by_cases hx : isPlus x = true
      · rw [if_pos hx] at h
        exact ih x (by simp only [size] at hv; omega) h.2
      · cases x with
        | binary c x p o l y =>
          refine fun ho => absurd ?_ hx
          subst ho; rfl
        | _ => exact trivial
    | _ => exact trivial

theorem chainOk_node (v : Expr) : chainOk (plusNode v) := by
  unfold plusNode
  split
  · exact chainOk_step v
  · rename_i h
    by_cases hp : isPlus v = true
    · rw [hp, Bool.true_and] at h
      exact chainOk_none v (Bool.eq_false_iff.mpr h)
    · cases v with
      | binary c x p o l y =>
        refine fun ho => absurd ?_ hp
        subst ho; rfl
      | _ => exact trivial

/-- a binary operation (helper) -/
def isBinary : Expr → Bool
  | .binary .. => true
  | _ => false

theorem isBinary_withSlots (v : Expr) (k : List Expr) : isBinary (withSlots v k) = isBinary v := by
  cases v <;> (unfold withSlots; split <;> simp_all [isBinary])

theorem isBinary_of {v : Expr} (h : BrokenBeforeList v) : isBinary v = true := by
  cases v <;> first | rfl | exact h.elim

theorem plusN_complete (n : Nat) : ∀ skip v, size v ≤ n → treeOk v → (skip = true → chainOk v) →
    All (fun v => ¬ BrokenBeforeList v) (plusN n skip v) := by
  induction n with
  | zero => intro skip v hv; have := size_pos v; omega
  | succ n ih =>
    intro skip v hv hok hc
    rw [plusN]
    split
    · rename_i hn
      cases v with
      | nil =>
        refine (All_iff _ _).mpr ⟨id, ?_⟩
        intro x hx
        exact nomatch hx
      | _ => exact nomatch hn
    · dsimp only
      have hk : Kept v (if skip = true then v else plusNode v) := by
        split
        · exact Kept.rfl' v
        · exact plusNode_kept v
      have hc1 : chainOk (if skip = true then v else plusNode v) := by
        split
        · rename_i h; exact hc h
        · exact chainOk_node v
      revert hk hc1
      generalize (if skip = true then v else plusNode v) = v1
      intro hk hc1
      have hok1 := hk.ok hok
      have hsz := kept_size hk
      have ho := (treeOk_iff v1).mp hok1
      split
      · rename_i hsl
        refine (All_iff _ _).mpr ⟨?_, ?_⟩
        · cases v1 <;> first | exact id | exact nomatch hsl
        · rw [hsl]; intro x hx; exact nomatch hx
      · rename_i x rest hsl
        have hmem : ∀ y ∈ x :: rest, size y ≤ n ∧ treeOk y := by
          intro y hy
          have := size_slot_lt (v := v1) (x := y) (by rw [hsl]; exact hy)
          exact ⟨by omega, ho.2 y (by rw [hsl]; exact hy)⟩
        have hx := hmem x (by simp)
        have hF : Forall2 (fun a b => leafKept a b ∧ isListP b = isListP a ∧ All (fun v => ¬ BrokenBeforeList v) b)
            (slots v1) (plusN n (isPlus v1 && isPlus x) x :: rest.map (plusN n false)) := by
          rw [hsl]
          refine .cons ?_ ?_
          · have k := plusN_kept n (isPlus v1 && isPlus x) x hx.2
            refine ⟨k.leaf, kept_list k, ih _ x hx.1 hx.2 ?_⟩
            intro h
            cases v1 with
            | binary c x1 p o l y =>
              simp only [slots, List.cons.injEq] at hsl
              rw [← hsl.1]
              simp only [isPlus, Bool.and_eq_true, beq_iff_eq] at h
              exact (hc1 h.1).2
            | _ => exact nomatch h
          · have : ∀ r, (∀ y ∈ r, size y ≤ n ∧ treeOk y) →
                Forall2 (fun a b => leafKept a b ∧ isListP b = isListP a ∧ All (fun v => ¬ BrokenBeforeList v) b) r
                  (r.map (plusN n false)) := by
              intro r
              induction r with
              | nil => intro _; exact .nil
              | cons y r ihr =>
                intro hr
                have hy := hr y (by simp)
                have k := plusN_kept n false y hy.2
                exact .cons ⟨k.leaf, kept_list k, ih _ y hy.1 hy.2 (fun h => nomatch h)⟩
                  (ihr (fun z hz => hr z (by simp [hz])))
            exact this rest (fun y hy => hmem y (by simp [hy]))
        have hfit := fits_of_kept v1 ho.1 _ (forall2_imp hF (fun a b h => h.1))
        refine (All_iff _ _).mpr ⟨?_, ?_⟩
        · cases v1 with
          | binary c x1 p o l y =>
            simp only [slots] at hF
            generalize (plusN n (isPlus (.binary c x1 p o l y) && isPlus x) x :: rest.map (plusN n false)) = k at hF
            cases hF with
            | cons h1 hF =>
              cases hF with
              | cons h2 hF =>
                cases hF
                simp only [withSlots]
                intro hb
                have := (hc1 hb.1).1 hb.2.1
                have hl := (isListP_iff _).mpr hb.2.2
                rw [h2.2.1, this] at hl
                exact nomatch hl
          | _ =>
            intro h
            have := isBinary_withSlots _ _ ▸ isBinary_of h
            exact nomatch this
        · rw [slots_withSlots _ _ hfit]
          exact forall2_right hF (fun a b h => h.2.2)

/-- **C53 (multiplus, complete).** Afterwards no line is broken between a `+` and a list (or a call around a list) to its
right, anywhere in the tree. -/
theorem C53_plus_complete (e : Expr) (h : treeOk e) : All (fun v => ¬ BrokenBeforeList v) (fixMultilinePlus e) :=
  plusN_complete (size e) false e (Nat.le_refl _) h (fun h => nomatch h)

/-! #### Examples -/

private def lst (l : List Expr) : Expr := .list {} {} l {} false
private def idn (s : Bytes) : Expr := .ident { name := s }
private def plus (lb : Bool) (x y : Expr) : Expr := .binary {} x {} b!"+" lb y
private def f2 : Expr := .call {} (idn b!"f") {} [idn b!"a", idn b!"b"] {} false false

/-- `f(a, b) +⏎ y` has no list in it and stays; `["x"] + f(a, b) +⏎ y` loses the break -/
example : fixMultilinePlus (.file {} [plus true f2 (idn b!"y")]) = .file {} [plus true f2 (idn b!"y")] := rfl
example : fixMultilinePlus (.file {} [plus true (plus false (lst [idn b!"x"]) f2) (idn b!"y")])
    = .file {} [plus false (plus false (lst [idn b!"x"]) f2) (idn b!"y")] := rfl

/-- the hypotheses are met by sums with breaks in them -/
theorem C53_plus_example : All (fun v => ¬ ListOperand v) (plus true f2 (idn b!"y")) ∧
    All (fun v => ¬ UselessBreak v) (plus true (lst [idn b!"x"]) (idn b!"y")) ∧
    ¬ All (fun v => ¬ BrokenBeforeList v) (plus true (idn b!"y") (lst [idn b!"x"])) := by
  refine ⟨fun n => ?_, fun n => ?_, fun h => ?_⟩
  · rcases n with _ | _ | _ | n <;> simp [All.allN, slots, plus, f2, idn, ListOperand] <;>
      exact ⟨(fun h => by cases h), (fun h => by cases h)⟩
  · rcases n with _ | _ | _ | n <;> simp [All.allN, slots, plus, lst, idn, UselessBreak, leftOf] <;>
      exact ⟨(fun h => by cases h), (fun h => by cases h with | list _ _ _ _ _ h => simp at h)⟩
  · exact ((All_iff _ _).mp h).1 ⟨rfl, rfl, .list ..⟩

end Verif.Props.Plus
