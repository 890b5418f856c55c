import Verif.Model.Cosmetic
/-
C76: the package-on-top check and its fix.
-/
namespace Verif.Cosmetic
open Verif Verif.Syntax Verif.Walk Verif.Edit

/-! ### specification -/

/-- a call of a function with this name -/
def Calls (name : Bytes) (e : Expr) : Prop := ∃ c i p l en a b, e = .call c (.ident i) p l en a b ∧ i.name = name

/-- `package(...)` -/
def IsPackage (e : Expr) : Prop := Calls b!"package" e

/-- an assignment -/
def IsAssign (e : Expr) : Prop := ∃ c l p op lb r, e = .assign c l p op lb r

/-- what may come before the package declaration: strings, comments, load statements, `licenses(...)` and `package_group(...)` -/
def IsEarly (e : Expr) : Prop :=
  e = .nil ∨ (∃ s, e = .string s) ∨ (∃ c p, e = .commentBlock c p) ∨ (∃ c p m f t r b, e = .load c p m f t r b) ∨
  Calls b!"licenses" e ∨ Calls b!"package_group" e

/-- The statement with index `i` is a package declaration that comes too late: there is no assignment before it, and a statement before it that
should come after it. -/
def TooLate (l : List Expr) (i : Nat) : Prop :=
  (∃ e, l[i]? = some e ∧ IsPackage e) ∧ (∀ j e, j < i → l[j]? = some e → ¬ IsAssign e) ∧
  ∃ (j : Nat) (e : Expr), j < i ∧ l[j]? = some e ∧ ¬ IsEarly e ∧ ¬ IsPackage e

/-- `l'` is `l` after the fix: `l` consists of statements that may precede the package declaration and package declarations (`pre`), a part that
begins with another statement and contains no assignment (`body`), and, if not empty, a part that begins with an assignment (`rest`). The
package declarations of `body` move to its front, nothing else changes. -/
def Hoisted (l l' : List Expr) : Prop :=
  ∃ pre body rest pkgs others, l = pre ++ body ++ rest ∧ l' = pre ++ pkgs ++ others ++ rest ∧
    (∀ e ∈ pre, IsEarly e ∨ IsPackage e) ∧ (∀ e ∈ body, ¬ IsAssign e) ∧
    (∀ e, body.head? = some e → ¬ IsEarly e ∧ ¬ IsPackage e) ∧ (∀ e, rest.head? = some e → IsAssign e) ∧
    (∀ e ∈ pkgs, IsPackage e) ∧ (∀ e ∈ others, ¬ IsPackage e) ∧ pkgs.Sublist body ∧ others.Sublist body ∧ (pkgs ++ others).Perm body

/-! ### proofs -/

theorem isCallTo_iff (k : Bytes) (e : Expr) : isCallTo k e = true ↔ Calls k e := by
  unfold isCallTo Calls
  split
  next c i p l en a b =>
    simp only [beq_iff_eq]
    constructor
    · intro h; exact ⟨c, i, p, l, en, a, b, rfl, h⟩
    · rintro ⟨c', i', p', l', en', a', b', h, h'⟩; cases h; exact h'
  next h =>
    simp only [Bool.false_eq_true, false_iff]
    rintro ⟨c', i', p', l', en', a', b', rfl, _⟩
    exact h _ _ _ _ _ _ _ rfl

theorem isAssign_iff (e : Expr) : isAssign e = true ↔ IsAssign e := by
  unfold IsAssign
  cases e <;> simp [isAssign]

theorem mayPrecede_iff (e : Expr) : mayPrecede e = true ↔ IsEarly e := by
  unfold mayPrecede IsEarly
  rw [← isCallTo_iff, ← isCallTo_iff, Bool.or_eq_true, Bool.or_eq_true]
  cases e <;> simp [isCallTo]

theorem not_package_of_early (e : Expr) (h : mayPrecede e = true) : isCallTo b!"package" e = false := by
  cases e with
  | call c x p l en a b =>
    cases x with
    | ident i =>
      simp only [mayPrecede, isCallTo, Bool.or_eq_true, beq_iff_eq] at h ⊢
      rcases h with (h | h) | h
      · simp at h
      · rw [h]; decide
      · rw [h]; decide
    | _ => rfl
  | _ => rfl

theorem not_package_of_assign (e : Expr) (h : isAssign e = true) : isCallTo b!"package" e = false := by
  cases e <;> simp_all [isAssign, isCallTo]

/-- statements up to the first ordinary one or assignment -/
def isPre (e : Expr) : Bool := !isAssign e && (mayPrecede e || isCallTo b!"package" e)

def isPkg (e : Expr) : Bool := isCallTo b!"package" e
def notPkg (e : Expr) : Bool := !isCallTo b!"package" e
def notAssign (e : Expr) : Bool := !isAssign e

def preOf (l : List Expr) : List Expr := l.takeWhile isPre
def bodyOf (l : List Expr) : List Expr := (l.dropWhile isPre).takeWhile notAssign
def restOf (l : List Expr) : List Expr := (l.dropWhile isPre).dropWhile notAssign

theorem parts (l : List Expr) : l = preOf l ++ (bodyOf l ++ restOf l) := by
  simp [preOf, bodyOf, restOf, List.takeWhile_append_dropWhile]

theorem parts_get (l : List Expr) (j : Nat) : l[j]? = (preOf l ++ (bodyOf l ++ restOf l))[j]? := congrArg (fun k : List Expr => k[j]?) (parts l)

/-- indices, from `i` on, of the packages -/
def pkgIdx : Nat → List Expr → List Nat
  | _, [] => []
  | i, e :: l => if isPkg e then i :: pkgIdx (i + 1) l else pkgIdx (i + 1) l

theorem early_or (e : Expr) (h : mayPrecede e = true) : isPkg e = false := not_package_of_early e h

theorem scan_some (i m : Nat) (l : List Expr) : scanPackages i (some m) l = (some m, pkgIdx i (l.takeWhile notAssign)) := by
  induction l generalizing i with
  | nil => rfl
  | cons e l ih =>
    unfold scanPackages
    by_cases ha : isAssign e = true
    · simp [ha, notAssign, pkgIdx]
    · have hn : notAssign e = true := by simp [notAssign, ha]
      rw [if_neg ha, List.takeWhile_cons, if_pos hn, pkgIdx]
      by_cases hm : mayPrecede e = true
      · rw [if_pos hm, ih, early_or e hm]; rfl
      · rw [if_neg hm]
        by_cases hp : isPkg e = true
        · have : isCallTo b!"package" e = true := hp
          simp [this, hp, ih]
        · have : isCallTo b!"package" e = false := by simpa [isPkg] using hp
          simp [this, hp, ih]

theorem scan_none (i : Nat) (l : List Expr) : scanPackages i none l =
    (if bodyOf l = [] then none else some (i + (preOf l).length), pkgIdx (i + (preOf l).length) (bodyOf l)) := by
  induction l generalizing i with
  | nil => simp [scanPackages, bodyOf, pkgIdx]
  | cons e l ih =>
    unfold scanPackages
    by_cases ha : isAssign e = true
    · have hpre : isPre e = false := by simp [isPre, ha]
      simp [ha, bodyOf, hpre, notAssign, pkgIdx]
    · rw [if_neg ha]
      have ha' : isAssign e = false := by simpa using ha
      have shift : isPre e = true → preOf (e :: l) = e :: preOf l ∧ bodyOf (e :: l) = bodyOf l := by
        intro h; simp [preOf, bodyOf, h]
      by_cases hm : mayPrecede e = true
      · obtain ⟨h1, h2⟩ := shift (by simp [isPre, ha', hm])
        rw [if_pos hm, ih, h1, h2]
        simp only [List.length_cons]
        rw [show i + 1 + (preOf l).length = i + ((preOf l).length + 1) by omega]
      · rw [if_neg hm]
        by_cases hp : isCallTo b!"package" e = true
        · obtain ⟨h1, h2⟩ := shift (by simp [isPre, ha', hp])
          simp only [hp, Bool.not_true, Bool.false_eq_true, if_false]
          rw [ih, h1, h2]
          simp only [List.length_cons]
          rw [show i + 1 + (preOf l).length = i + ((preOf l).length + 1) by omega]
        · have hp' : isCallTo b!"package" e = false := by simpa using hp
          have hpre : isPre e = false := by simp [isPre, hm, hp']
          have hm' : mayPrecede e = false := by simpa using hm
          simp only [hp', Bool.not_false, if_true, Option.none_or]
          rw [scan_some]
          simp [bodyOf, preOf, hpre, notAssign, ha', pkgIdx, isPkg, hp']

theorem pkgIdx_length (i : Nat) (l : List Expr) : (pkgIdx i l).length = (l.filter isPkg).length := by
  induction l generalizing i with
  | nil => rfl
  | cons e l ih => unfold pkgIdx; split <;> simp_all

theorem mem_pkgIdx (i j : Nat) (l : List Expr) : j ∈ pkgIdx i l ↔ i ≤ j ∧ ∃ e, l[j - i]? = some e ∧ isPkg e = true := by
  induction l generalizing i with
  | nil => simp [pkgIdx]
  | cons e l ih =>
    have key : j ∈ pkgIdx (i + 1) l ↔ i + 1 ≤ j ∧ ∃ x, (e :: l)[j - i]? = some x ∧ isPkg x = true := by
      rw [ih]
      constructor
      · rintro ⟨h, x, hx, hp⟩
        refine ⟨h, x, ?_, hp⟩
        rw [show j - i = (j - (i + 1)) + 1 by omega]; simpa using hx
      · rintro ⟨h, x, hx, hp⟩
        refine ⟨h, x, ?_, hp⟩
        rw [show j - i = (j - (i + 1)) + 1 by omega] at hx; simpa using hx
    unfold pkgIdx
    split
    next hp =>
      rw [List.mem_cons, key]
      constructor
      · rintro (rfl | ⟨h, x⟩)
        · exact ⟨Nat.le_refl _, e, by simp, hp⟩
        · exact ⟨by omega, x⟩
      · rintro ⟨h, x, hx⟩
        by_cases hj : j = i
        · exact .inl hj
        · exact .inr ⟨by omega, x, hx⟩
    next hp =>
      rw [key]
      constructor
      · rintro ⟨h, x⟩; exact ⟨by omega, x⟩
      · rintro ⟨h, x, hx, hxp⟩
        refine ⟨?_, x, hx, hxp⟩
        by_cases hj : j = i
        · subst hj; simp at hx; subst hx; exact absurd hxp hp
        · omega

theorem replacements_skip (M : List Nat) (n i first offset : Nat) (h : i ≤ first) :
    replacements M (n + (first - i)) i first offset = replacements M n first first offset := by
  generalize hd : first - i = d
  induction d generalizing i with
  | zero => have : i = first := by omega
            subst this; rfl
  | succ d ih =>
    rw [show n + (d + 1) = (n + d) + 1 by omega, replacements, if_pos (by omega)]
    exact ih (i + 1) (by omega) (by omega)

theorem set_append_len (a : List Expr) (x y : Expr) (b : List Expr) (n : Nat) (h : n = a.length) : (a ++ x :: b).set n y = a ++ y :: b := by
  subst h; simp

theorem filter_count (A : List Expr) : (A.filter isPkg).length + (A.filter notPkg).length = A.length := by
  induction A with
  | nil => rfl
  | cons x A ih => by_cases h : isCallTo b!"package" x = true <;> simp [isPkg, notPkg, h] at ih ⊢ <;> omega

/-- the loop over the part `A ++ R` of the statements, after `A` -/
theorem loop (M : List Nat) (l pre rest : List Expr) : ∀ (R A G : List Expr), l = pre ++ (A ++ R) ++ rest →
    (∀ j e, l[j]? = some e → pre.length ≤ j → j < pre.length + (A ++ R).length → M.contains j = isPkg e) →
    0 < (R.filter isPkg).length → G.length = (R.filter isPkg).length →
    (replacements M (R ++ rest).length (pre.length + A.length) (pre.length + (A.filter isPkg).length) (R.filter isPkg).length).foldl
        (fun cur p => cur.set p.1 (l.getD p.2 .nil))
        (pre ++ A.filter isPkg ++ G ++ A.filter notPkg ++ (R ++ rest).drop G.length)
      = pre ++ (A ++ R).filter isPkg ++ (A ++ R).filter notPkg ++ rest := by
  intro R
  induction R with
  | nil => intro A G _ _ h; simp at h
  | cons e R ih =>
    intro A G hl hM hpos hG
    have hlen : (A.filter isPkg).length ≤ A.length := List.length_filter_le _ _
    have hi : l[pre.length + A.length]? = some e := by
      subst hl
      rw [show pre.length + A.length = (pre ++ A).length by simp]
      rw [show pre ++ (A ++ e :: R) ++ rest = (pre ++ A) ++ e :: (R ++ rest) by simp]
      simp
    have hMe := hM _ e hi (by omega) (by simp)
    have hgd : l.getD (pre.length + A.length) .nil = e := by rw [List.getD_eq_getElem?_getD, hi]; rfl
    rw [show (e :: R ++ rest).length = (R ++ rest).length + 1 by simp, replacements, if_neg (by omega), hMe]
    have hl' : l = pre ++ ((A ++ [e]) ++ R) ++ rest := by rw [hl]; simp
    have hcount : (A.filter isPkg).length + (A.filter notPkg).length = A.length := filter_count A
    by_cases hp : isPkg e = true
    · rw [if_pos hp, List.foldl_cons]
      have hn : notPkg e = false := by simpa [isPkg, notPkg] using hp
      simp only [List.filter_cons, hp, if_true, List.length_cons] at hG hpos ⊢
      cases G with
      | nil => simp at hG
      | cons g G =>
        simp only [List.length_cons, Nat.add_right_cancel_iff] at hG
        have hset : (pre ++ A.filter isPkg ++ (g :: G) ++ A.filter notPkg ++ (e :: R ++ rest).drop (G.length + 1)).set
            (pre.length + (A.filter isPkg).length) e
            = pre ++ (A ++ [e]).filter isPkg ++ G ++ (A ++ [e]).filter notPkg ++ (R ++ rest).drop G.length := by
          simp only [List.append_assoc, List.cons_append, List.drop_succ_cons]
          rw [← List.append_assoc pre, set_append_len _ _ _ _ _ (by simp)]
          simp [hp, hn]
        rw [hgd, List.length_cons, hset, Nat.add_sub_cancel]
        by_cases hz : (R.filter isPkg).length = 0
        · rw [if_pos hz, List.foldl_nil]
          rw [hz] at hG
          have hR := List.eq_nil_of_length_eq_zero hz
          rw [List.eq_nil_of_length_eq_zero hG]
          have hRn : R.filter notPkg = R := by
            rw [List.filter_eq_self]
            intro x hx
            have := List.filter_eq_nil_iff.1 hR x hx
            simpa [isPkg, notPkg] using this
          simp [hp, hn, hR, hRn]
        · rw [if_neg hz]
          have := ih (A ++ [e]) G hl' (fun j x h1 h2 h3 => hM j x h1 h2 (by simpa using h3)) (by omega) hG
          simp only [List.filter_append, List.length_append, List.length_singleton, List.filter_cons, hp, hn, if_true, List.filter_nil] at this ⊢
          rw [show pre.length + A.length + 1 = pre.length + (A.length + 1) by omega,
            show pre.length + (A.filter isPkg).length + 1 = pre.length + ((A.filter isPkg).length + 1) by omega]
          simpa using this
    · have hp' : isPkg e = false := by simpa using hp
      rw [if_neg hp, List.foldl_cons, hgd]
      have hn : notPkg e = true := by simpa [isPkg, notPkg] using hp'
      simp only [List.filter_cons, hp', Bool.false_eq_true, if_false] at hG hpos ⊢
      have hle : G.length ≤ R.length := by rw [hG]; exact List.length_filter_le _ _
      have hset : (pre ++ A.filter isPkg ++ G ++ A.filter notPkg ++ (e :: R ++ rest).drop G.length).set
          (pre.length + A.length + (R.filter isPkg).length) e
          = pre ++ (A ++ [e]).filter isPkg ++ G ++ (A ++ [e]).filter notPkg ++ (R ++ rest).drop G.length := by
        obtain ⟨x, hx⟩ : ∃ x, (e :: R ++ rest).drop G.length = x :: (R ++ rest).drop G.length := by
          have hlt : G.length < (e :: R ++ rest).length := by simp; omega
          refine ⟨(e :: R ++ rest)[G.length], ?_⟩
          rw [List.drop_eq_getElem_cons hlt]
          rfl
        rw [hx, set_append_len _ _ _ _ _ (by simp only [List.length_append]; omega)]
        simp [hp', hn]
      rw [hset]
      have := ih (A ++ [e]) G hl' (fun j x h1 h2 h3 => hM j x h1 h2 (by simpa using h3)) hpos hG
      simp only [List.filter_append, List.length_append, List.length_singleton, List.filter_cons, hp', hn, if_true, if_false, Bool.false_eq_true,
        List.filter_nil, List.append_nil] at this ⊢
      rw [show pre.length + A.length + 1 = pre.length + (A.length + 1) by omega]
      simpa using this

theorem filters_of_none {l : List Expr} (h : (l.filter isPkg).length = 0) : l.filter isPkg = [] ∧ l.filter notPkg = l := by
  have hR := List.eq_nil_of_length_eq_zero h
  refine ⟨hR, ?_⟩
  rw [List.filter_eq_self]
  intro x hx
  have := List.filter_eq_nil_iff.1 hR x hx
  simpa [isPkg, notPkg] using this

theorem packageOnTop_eq (l : List Expr) :
    packageOnTop l = (pkgIdx (preOf l).length (bodyOf l), preOf l ++ (bodyOf l).filter isPkg ++ (bodyOf l).filter notPkg ++ restOf l) := by
  unfold packageOnTop
  rw [scan_none]
  simp only [Nat.zero_add, pkgIdx_length]
  split
  next h =>
    obtain ⟨h1, h2⟩ := filters_of_none h
    rw [h1, h2]
    rw [show pkgIdx (preOf l).length (bodyOf l) = [] from List.eq_nil_of_length_eq_zero (by rw [pkgIdx_length]; exact h)]
    simp [← parts l]
  next h =>
    have hb : bodyOf l ≠ [] := by intro hb; rw [hb] at h; simp at h
    simp only [hb, if_false, Option.getD_some]
    congr 1
    unfold assignAll
    have hl : l.length = (bodyOf l ++ restOf l).length + ((preOf l).length - 0) := by
      conv => lhs; rw [parts l]
      simp; omega
    conv =>
      lhs
      rw [hl, replacements_skip _ _ _ _ _ (Nat.zero_le _)]
    have := loop (pkgIdx (preOf l).length (bodyOf l)) l (preOf l) (restOf l) (bodyOf l) []
      ((bodyOf l ++ restOf l).take ((bodyOf l).filter isPkg).length) (by rw [List.nil_append, List.append_assoc]; exact parts l) ?_ (by omega) ?_
    · simp only [List.filter_nil, List.append_nil, List.length_nil, Nat.add_zero, List.nil_append] at this
      rw [← this]
      congr 1
      rw [List.append_assoc]
      have hle : ((bodyOf l).filter isPkg).length ≤ (bodyOf l ++ restOf l).length := by
        have := List.length_filter_le isPkg (bodyOf l); simp; omega
      rw [List.length_take, Nat.min_eq_left hle, List.take_append_drop]
      exact parts l
    · intro j e hj h1 h2
      rw [Bool.eq_iff_iff, List.contains_iff_mem, mem_pkgIdx]
      have hj' : (bodyOf l)[j - (preOf l).length]? = some e := by
        rw [parts l, List.getElem?_append_right h1, List.getElem?_append_left (by simp at h2; omega)] at hj
        exact hj
      rw [hj']
      simp [h1]
    · have := List.length_filter_le isPkg (bodyOf l)
      simp; omega

theorem isPre_iff (e : Expr) : isPre e = true ↔ ¬ IsAssign e ∧ (IsEarly e ∨ IsPackage e) := by
  simp only [isPre, Bool.and_eq_true, Bool.not_eq_true', Bool.or_eq_true, mayPrecede_iff, isCallTo_iff, IsPackage]
  rw [← isAssign_iff]; simp

theorem early_not_assign (e : Expr) (h : IsEarly e ∨ IsPackage e) : ¬ IsAssign e := by
  rintro ⟨c, l, p, op, lb, r, rfl⟩
  rcases h with (h | ⟨s, h⟩ | ⟨c, p, h⟩ | ⟨_, _, _, _, _, _, _, h⟩ | ⟨_, _, _, _, _, _, _, h, _⟩ | ⟨_, _, _, _, _, _, _, h, _⟩) | ⟨_, _, _, _, _, _, _, h, _⟩ <;> cases h

theorem takeWhile_all {p : Expr → Bool} {l : List Expr} {e : Expr} (h : e ∈ l.takeWhile p) : p e = true := by
  induction l with
  | nil => simp at h
  | cons x l ih =>
    rw [List.takeWhile_cons] at h
    split at h
    next hx =>
      rcases List.mem_cons.1 h with rfl | h
      · exact hx
      · exact ih h
    next => simp at h

theorem dropWhile_head {p : Expr → Bool} {l : List Expr} {e : Expr} (h : (l.dropWhile p).head? = some e) : p e = false := by
  induction l with
  | nil => simp at h
  | cons x l ih =>
    rw [List.dropWhile_cons] at h
    split at h
    next hx => exact ih h
    next hx => simp at h; subst h; simpa using hx

theorem body_head {l : List Expr} {e : Expr} (h : (bodyOf l).head? = some e) : ¬ IsEarly e ∧ ¬ IsPackage e := by
  unfold bodyOf at h
  cases hd : l.dropWhile isPre with
  | nil => rw [hd] at h; simp at h
  | cons x t =>
    rw [hd, List.takeWhile_cons] at h
    split at h
    next hx =>
      simp at h; subst h
      have := dropWhile_head (p := isPre) (l := l) (e := x) (by rw [hd]; rfl)
      have hna : ¬ IsAssign x := by rw [← isAssign_iff]; simpa [notAssign] using hx
      have hnp : ¬ (¬ IsAssign x ∧ (IsEarly x ∨ IsPackage x)) := by rw [← isPre_iff, this]; simp
      exact ⟨fun h => hnp ⟨hna, .inl h⟩, fun h => hnp ⟨hna, .inr h⟩⟩
    next => simp at h

theorem filter_perm2 (l : List Expr) : (l.filter isPkg ++ l.filter notPkg).Perm l := by
  induction l with
  | nil => simp
  | cons e l ih =>
    by_cases h : isPkg e = true
    · have hn : notPkg e = false := by simpa [isPkg, notPkg] using h
      simp only [List.filter_cons, h, hn, if_true, Bool.false_eq_true, if_false, List.cons_append]
      exact ih.cons e
    · have hn : notPkg e = true := by simpa [isPkg, notPkg] using h
      simp only [List.filter_cons, h, hn, if_false, if_true, Bool.false_eq_true]
      exact (List.perm_middle.trans (ih.cons e))

/-- **C76**: the fix moves the package declarations that come too late to the place of the first statement that should come after them, and changes
nothing else. -/
theorem C76_moves (l : List Expr) : Hoisted l (packageOnTop l).2 := by
  rw [packageOnTop_eq]
  refine ⟨preOf l, bodyOf l, restOf l, (bodyOf l).filter isPkg, (bodyOf l).filter notPkg, by rw [List.append_assoc]; exact parts l, rfl, ?_, ?_, ?_, ?_, ?_, ?_,
    List.filter_sublist, List.filter_sublist, filter_perm2 _⟩
  · intro e he; exact ((isPre_iff e).1 (takeWhile_all he)).2
  · intro e he
    have := takeWhile_all he
    rw [← isAssign_iff]; simpa [notAssign] using this
  · intro e he; exact body_head he
  · intro e he
    have := dropWhile_head he
    rw [← isAssign_iff]; simpa [notAssign] using this
  · intro e he; exact (isCallTo_iff _ e).1 (List.mem_filter.1 he).2
  · intro e he
    have := (List.mem_filter.1 he).2
    rw [IsPackage, ← isCallTo_iff]; simpa [notPkg] using this

/-- **C76**: exactly the package declarations that come too late are reported. -/
theorem C76_reported_exactly (l : List Expr) (i : Nat) : i ∈ (packageOnTop l).1 ↔ TooLate l i := by
  rw [packageOnTop_eq]
  show i ∈ pkgIdx _ _ ↔ _
  rw [mem_pkgIdx]
  constructor
  · rintro ⟨h1, e, he, hp⟩
    have hlt : i - (preOf l).length < (bodyOf l).length := (List.getElem?_eq_some_iff.1 he).1
    have hget : ∀ j, j < i → ∀ x, l[j]? = some x → x ∈ preOf l ∨ x ∈ bodyOf l := by
      intro j hj x hx
      rw [parts l] at hx
      by_cases hjp : j < (preOf l).length
      · rw [List.getElem?_append_left hjp] at hx
        exact .inl (List.mem_of_getElem? hx)
      · rw [List.getElem?_append_right (by omega), List.getElem?_append_left (by omega)] at hx
        exact .inr (List.mem_of_getElem? hx)
    refine ⟨⟨e, ?_, (isCallTo_iff _ e).1 hp⟩, ?_, ?_⟩
    · rw [parts l, List.getElem?_append_right h1, List.getElem?_append_left hlt]; exact he
    · intro j x hj hx
      rcases hget j hj x hx with h | h
      · exact ((isPre_iff x).1 (takeWhile_all h)).1
      · have := takeWhile_all h
        rw [← isAssign_iff]; simpa [notAssign] using this
    · cases hb : bodyOf l with
      | nil => rw [hb] at hlt; simp at hlt
      | cons x t =>
        have hx := body_head (l := l) (e := x) (by rw [hb]; rfl)
        refine ⟨(preOf l).length, x, ?_, ?_, hx.1, hx.2⟩
        · apply Nat.lt_of_le_of_ne h1
          intro heq
          rw [← heq, hb] at he
          simp at he
          subst he
          exact hx.2 ((isCallTo_iff _ _).1 hp)
        · rw [parts_get, List.getElem?_append_right (Nat.le_refl _), hb]; simp
  · rintro ⟨⟨e, he, hp⟩, hna, j, x, hji, hx, hne, hnp⟩
    have hjp : (preOf l).length ≤ j := by
      apply Classical.byContradiction
      intro hlt
      rw [parts l, List.getElem?_append_left (by omega)] at hx
      rcases ((isPre_iff x).1 (takeWhile_all (List.mem_of_getElem? hx))).2 with h | h
      · exact hne h
      · exact hnp h
    refine ⟨by omega, e, ?_, (isCallTo_iff _ e).2 hp⟩
    rw [parts l, List.getElem?_append_right (by omega)] at he
    by_cases hlt : i - (preOf l).length < (bodyOf l).length
    · rw [List.getElem?_append_left hlt] at he; exact he
    · exfalso
      rw [List.getElem?_append_right (by omega)] at he
      cases hr : restOf l with
      | nil => rw [hr] at he; simp at he
      | cons y t =>
        have hy : IsAssign y := by
          have := dropWhile_head (p := notAssign) (l := l.dropWhile isPre) (e := y) (by show (restOf l).head? = _; rw [hr]; rfl)
          rw [← isAssign_iff]; simpa [notAssign] using this
        have hyi : l[(preOf l).length + (bodyOf l).length]? = some y := by
          rw [parts_get, ← List.append_assoc, ← List.length_append, List.getElem?_append_right (Nat.le_refl _), hr]; simp
        by_cases hlast : (preOf l).length + (bodyOf l).length = i
        · rw [hr] at he
          rw [show i - (preOf l).length - (bodyOf l).length = 0 by omega] at he
          simp at he; subst he
          exact early_not_assign _ (.inr hp) hy
        · exact hna _ y (by omega) hyi hy

theorem hoisted_parts (pre body rest : List Expr) (h1 : ∀ e ∈ pre, isPre e = true) (h2 : ∀ e ∈ body, notAssign e = true)
    (h3 : ∀ e, (body ++ rest).head? = some e → isPre e = false) (h4 : ∀ e, rest.head? = some e → notAssign e = false) :
    preOf (pre ++ (body ++ rest)) = pre ∧ bodyOf (pre ++ (body ++ rest)) = body ∧ restOf (pre ++ (body ++ rest)) = rest := by
  have tw : ∀ (p : Expr → Bool) (a b : List Expr), (∀ e ∈ a, p e = true) → (∀ e, b.head? = some e → p e = false) →
      (a ++ b).takeWhile p = a ∧ (a ++ b).dropWhile p = b := by
    intro p a b ha hb
    induction a with
    | nil =>
      cases b with
      | nil => simp
      | cons y b => simp [hb y rfl]
    | cons x a ih =>
      obtain ⟨i1, i2⟩ := ih fun e he => ha e (List.mem_cons_of_mem _ he)
      simp [ha x List.mem_cons_self, i1, i2]
  obtain ⟨e1, e2⟩ := tw isPre pre (body ++ rest) h1 h3
  obtain ⟨e3, e4⟩ := tw notAssign body rest h2 h4
  refine ⟨e1, ?_, ?_⟩
  · unfold bodyOf; rw [e2, e3]
  · unfold restOf; rw [e2, e4]

/-- **C76**: after the fix nothing is reported, so that applying it again changes nothing; and if nothing is reported nothing changes. -/
theorem C76_idempotent (l : List Expr) : (packageOnTop (packageOnTop l).2).1 = [] ∧
    (packageOnTop (packageOnTop l).2).2 = (packageOnTop l).2 ∧ ((packageOnTop l).1 = [] → (packageOnTop l).2 = l) := by
  have hnil : ∀ l, (packageOnTop l).1 = [] → (packageOnTop l).2 = l := by
    intro l h
    rw [packageOnTop_eq] at h ⊢
    simp only at h ⊢
    have h0 : ((bodyOf l).filter isPkg).length = 0 := by rw [← pkgIdx_length (preOf l).length, h]; rfl
    obtain ⟨h1, h2⟩ := filters_of_none h0
    rw [h1, h2]; simp [← parts l]
  have hclean : (packageOnTop (packageOnTop l).2).1 = [] := by
    apply List.eq_nil_of_length_eq_zero
    rw [packageOnTop_eq (packageOnTop l).2]
    simp only [pkgIdx_length]
    rw [packageOnTop_eq l]
    simp only
    have hb : ∀ e ∈ bodyOf l, notAssign e = true := fun e he => takeWhile_all he
    have hh := hoisted_parts (preOf l ++ (bodyOf l).filter isPkg) ((bodyOf l).filter notPkg) (restOf l) ?_ ?_ ?_ ?_
    · have e2 := hh.2.1
      rw [← List.append_assoc] at e2
      rw [e2, List.filter_filter]
      have : (bodyOf l).filter (fun a => isPkg a && notPkg a) = [] := by
        rw [List.filter_eq_nil_iff]; intro e _; simp [isPkg, notPkg]
      rw [this]; rfl
    · intro e he
      rcases List.mem_append.1 he with he | he
      · exact takeWhile_all he
      · obtain ⟨h1, h2⟩ := List.mem_filter.1 he
        have := hb e h1
        simp only [isPre, Bool.and_eq_true, Bool.or_eq_true]
        exact ⟨this, .inr h2⟩
    · intro e he; exact hb e (List.mem_filter.1 he).1
    · intro e he
      have hrest : ∀ e, (restOf l).head? = some e → isPre e = false := by
        intro e he
        have := dropWhile_head he
        have ha : isAssign e = true := by simpa [notAssign] using this
        simp [isPre, ha]
      cases hbd : bodyOf l with
      | nil => rw [hbd] at he; exact hrest e (by simpa using he)
      | cons x t =>
        have hx := body_head (l := l) (e := x) (by rw [hbd]; rfl)
        have hxn : notPkg x = true := by
          have : ¬ isCallTo b!"package" x = true := by rw [isCallTo_iff]; exact hx.2
          simpa [notPkg] using this
        rw [hbd] at he
        simp only [List.filter_cons, hxn, if_true, List.cons_append, List.head?_cons, Option.some.injEq] at he
        subst he
        rw [← Bool.not_eq_true, isPre_iff]
        rintro ⟨_, h | h⟩
        · exact hx.1 h
        · exact hx.2 h
    · intro e he; exact dropWhile_head he
  exact ⟨hclean, hnil _ hclean, hnil l⟩

/-- **C76**: in a file that is no WORKSPACE and no MODULE.bazel file the declarations that come too late are reported and moved; in those nothing
is reported and nothing changes. -/
theorem C76_file_types (f : File) :
    (∀ i, i ∈ (packageOnTopWarning f).1 ↔ (f.type ≠ .workspace ∧ f.type ≠ .module) ∧ TooLate f.stmts i) ∧
    ((f.type = .workspace ∨ f.type = .module) → (packageOnTopWarning f).2 = f) ∧
    (f.type ≠ .workspace ∧ f.type ≠ .module → Hoisted f.stmts (packageOnTopWarning f).2.stmts) := by
  unfold packageOnTopWarning
  split
  next h => exact ⟨fun i => by simp; intro a b; simp [a, b] at h, fun _ => rfl, fun h' => by simp [h'] at h⟩
  next h =>
    simp only [not_or] at h
    exact ⟨fun i => by rw [C76_reported_exactly]; exact ⟨fun x => ⟨h, x⟩, fun x => x.2⟩, fun h' => by simp [h] at h', fun _ => C76_moves _⟩

/-! ### non-trivial cases -/

def pcall (n : Bytes) (l : List Expr) : Expr := .call {} (.ident { name := n }) {} l {} false false

/-- two package declarations move to the place of the first rule; what follows an assignment stays -/
example :
    packageOnTop [.string { value := b!"doc" }, pcall b!"foo" [], pcall b!"package" [.literal {} {} b!"1"], pcall b!"licenses" [],
      pcall b!"package" [.literal {} {} b!"2"], pcall b!"bar" [], .assign {} (.ident { name := b!"x" }) {} b!"=" false (.literal {} {} b!"1"),
      pcall b!"package" []] =
    ([2, 4], [.string { value := b!"doc" }, pcall b!"package" [.literal {} {} b!"1"], pcall b!"package" [.literal {} {} b!"2"], pcall b!"foo" [],
      pcall b!"licenses" [], pcall b!"bar" [], .assign {} (.ident { name := b!"x" }) {} b!"=" false (.literal {} {} b!"1"),
      pcall b!"package" []]) := rfl

/-- **C76**: the fix does not look at what the declaration uses: a declaration that uses a loaded symbol, or a function, moves in front of the load
statement or of the definition of the function (load-on-top has to be fixed first; the comment in the code says so for loads). -/
theorem C76_moved_before_use :
    packageOnTop [pcall b!"foo" [], .load {} {} { value := b!":a.bzl" } [{ name := b!"V" }] [{ name := b!"V" }] {} false,
        .defS {} {} b!"f" [] [.returnS {} {} (.ident { name := b!"V" })] {} false false .nil, pcall b!"package" [pcall b!"f" []]] =
      ([3], [pcall b!"package" [pcall b!"f" []], pcall b!"foo" [],
        .load {} {} { value := b!":a.bzl" } [{ name := b!"V" }] [{ name := b!"V" }] {} false,
        .defS {} {} b!"f" [] [.returnS {} {} (.ident { name := b!"V" })] {} false false .nil]) := rfl

end Verif.Cosmetic
