import Verif.Model.Loads
import Verif.Props.Walk
/-
C16: moving load statements to the top of a file.
-/
namespace Verif.Props.LoadTop
open Verif Verif.Syntax Verif.Walk Verif.Rewrite Verif.Props.Walk

/-! ### Specification -/

/-- neither a load statement nor something that may precede loads (docstring, comment block, `workspace()`, nil) -/
def isOrdinary : Expr → Bool
  | .nil | .string _ | .commentBlock .. | .load .. => false
  | .call _ (.ident i) .. => i.name != b!"workspace"
  | _ => true

theorem isOrdinary_eq (e : Expr) : isOrdinary e = (!isHeader e && !isLoad e) := by
  cases e <;> try rfl
  rename_i c x ls l e a b
  cases x <;> simp [isOrdinary, isHeader, isLoad, isFunctionCall, bne]

/-- the statements up to the first ordinary one -/
def preamble (l : List Expr) : List Expr := l.takeWhile fun e => !isOrdinary e
/-- the statements from the first ordinary one on -/
def body (l : List Expr) : List Expr := l.dropWhile fun e => !isOrdinary e

def nonLoad (e : Expr) : Bool := !isLoad e

/-! ### Proof -/

theorem firstStmt_eq (l : List Expr) :
    firstStmt l = if body l = [] then none else some (preamble l).length := by
  unfold firstStmt
  induction l with
  | nil => rfl
  | cons e l ih =>
    rw [List.findIdx?_cons]
    by_cases h : isOrdinary e = true
    · have h' : (!isHeader e && !isLoad e) = true := by rw [← isOrdinary_eq]; exact h
      simp [h', body, preamble, h]
    · simp only [Bool.not_eq_true] at h
      have h' : (!isHeader e && !isLoad e) = false := by rw [← isOrdinary_eq]; exact h
      rw [h', ih]
      simp only [body, preamble, List.dropWhile_cons, List.takeWhile_cons, h, Bool.not_false, if_true]
      by_cases hb : List.dropWhile (fun e => !isOrdinary e) l = []
      · simp [hb]
      · simp [hb]

/-- Invariant of the loop after the statements with index `< m + t` have been looked at. -/
structure Inv (copy : List Expr) (m K : Nat) (A : List Expr) (s : MoveState) : Prop where
  len : s.stmts.length = copy.length
  pre : ∀ p, p < m → s.stmts[p]? = copy[p]?
  loads : ∀ k, k < (A.filter isLoad).length → s.stmts[m + k]? = (A.filter isLoad)[k]?
  others : ∀ k, k < (A.filter nonLoad).length → s.stmts[m + K + k]? = (A.filter nonLoad)[k]?
  rest : ∀ p, m + K + (A.filter nonLoad).length ≤ p → s.stmts[p]? = copy[p]?
  first : s.first = m + (A.filter isLoad).length
  offset : s.offset = K - (A.filter isLoad).length
  notdone : s.done = false

theorem filter_lengths (A : List Expr) : (A.filter isLoad).length + (A.filter nonLoad).length = A.length := by
  induction A with
  | nil => rfl
  | cons e A ih =>
    cases h : isLoad e <;> simp [nonLoad, h] <;> simp only [← ih] <;> omega

/-- the loop from index `m + A.length` on -/
theorem loop_from (copy pre : List Expr) (R : List Expr) : ∀ (A : List Expr) (s : MoveState),
    copy = pre ++ (A ++ R) →
    (∀ i e, copy[i]? = some e → pre.length ≤ i → misplaced copy i = isLoad e) →
    0 < (R.filter isLoad).length →
    Inv copy pre.length ((A ++ R).filter isLoad).length A s →
    (((List.range' (pre.length + A.length) R.length).foldl (moveStep copy) s).stmts
      = pre ++ ((A ++ R).filter isLoad ++ (A ++ R).filter nonLoad)) := by
  induction R with
  | nil => intro A s _ _ h; simp at h
  | cons e R ih =>
    intro A s hc hm hK hi
    rw [List.length_cons, List.range'_succ, List.foldl_cons]
    have hidx : copy[pre.length + A.length]? = some e := by
      rw [hc, List.getElem?_append_right (by omega)]
      rw [Nat.add_sub_cancel_left, List.getElem?_append_right (Nat.le_refl _), Nat.sub_self]
      rfl
    have hget : copy.getD (pre.length + A.length) .nil = e := by
      rw [List.getD_eq_getElem?_getD, hidx]; rfl
    have hmis := hm _ _ hidx (by omega)
    have hfl := filter_lengths A
    have hlen : copy.length = pre.length + (A.length + (R.length + 1)) := by rw [hc]; simp
    have htot : ((A ++ e :: R).filter isLoad).length = (A.filter isLoad).length + ((e :: R).filter isLoad).length := by
      rw [List.filter_append, List.length_append]
    have hRle : (R.filter isLoad).length ≤ R.length := List.length_filter_le _ _
    have hassoc : A ++ e :: R = (A ++ [e]) ++ R := by simp
    have hnlt : ¬ (pre.length + A.length < s.first) := by rw [hi.first]; omega
    have hstep : moveStep copy s (pre.length + A.length) = if isLoad e then
        { stmts := s.stmts.set s.first e, first := s.first + 1, offset := s.offset - 1, done := s.offset - 1 == 0 }
        else { s with stmts := s.stmts.set (pre.length + A.length + s.offset) e } := by
      unfold moveStep
      rw [hi.notdone]
      simp only [Bool.false_or, decide_eq_true_eq, if_neg hnlt, hmis, hget]
    rw [hstep]
    cases he : isLoad e with
    | true =>
      simp only [if_true]
      rw [List.filter_cons, he] at htot
      simp only [if_true, List.length_cons] at htot
      have hA1 : (A ++ [e]).filter isLoad = A.filter isLoad ++ [e] := by simp [List.filter_append, he]
      have hA2 : (A ++ [e]).filter nonLoad = A.filter nonLoad := by simp [List.filter_append, nonLoad, he]
      have hfirst := hi.first
      have hoff := hi.offset
      -- the new state satisfies the invariant apart from `done`
      have hst : ∀ p, (s.stmts.set s.first e)[p]? = if p = s.first then some e else s.stmts[p]? := by
        intro p
        rw [List.getElem?_set]
        by_cases hp : s.first = p
        · subst hp
          have : s.first < s.stmts.length := by rw [hi.len, hlen, hfirst]; omega
          simp [this]
        · rw [if_neg hp, if_neg (fun h => hp h.symm)]
      have i1 : (s.stmts.set s.first e).length = copy.length := by rw [List.length_set]; exact hi.len
      have i2 : ∀ p, p < pre.length → (s.stmts.set s.first e)[p]? = copy[p]? := by
        intro p hp; rw [hst, if_neg (by omega)]; exact hi.pre p hp
      have i3 : ∀ k, k < ((A ++ [e]).filter isLoad).length →
          (s.stmts.set s.first e)[pre.length + k]? = ((A ++ [e]).filter isLoad)[k]? := by
        intro k hk
        rw [hA1] at hk ⊢
        rw [List.length_append, List.length_singleton] at hk
        rw [hst]
        by_cases hk2 : k = (A.filter isLoad).length
        · rw [if_pos (by omega), List.getElem?_append_right (by omega), hk2, Nat.sub_self]; rfl
        · rw [if_neg (by omega), List.getElem?_append_left (by omega)]
          exact hi.loads k (by omega)
      have i4 : ∀ k, k < ((A ++ [e]).filter nonLoad).length →
          (s.stmts.set s.first e)[pre.length + ((A ++ e :: R).filter isLoad).length + k]? = ((A ++ [e]).filter nonLoad)[k]? := by
        intro k hk
        rw [hA2] at hk ⊢
        rw [hst, if_neg (by omega)]
        exact hi.others k hk
      have i5 : ∀ p, pre.length + ((A ++ e :: R).filter isLoad).length + ((A ++ [e]).filter nonLoad).length ≤ p →
          (s.stmts.set s.first e)[p]? = copy[p]? := by
        intro p hp
        rw [hA2] at hp
        rw [hst, if_neg (by omega)]
        exact hi.rest p hp
      by_cases hR0 : (R.filter isLoad).length = 0
      · -- the last load: the loop stops
        have hdone : (s.offset - 1 == 0) = true := by rw [hoff, htot, hR0]; simp
        rw [hdone]
        have stop : ∀ (is : List Nat) (s : MoveState), s.done = true → (is.foldl (moveStep copy) s) = s := by
          intro is
          induction is with
          | nil => intro s _; rfl
          | cons i is ih2 =>
            intro s hs
            rw [List.foldl_cons]
            have : moveStep copy s i = s := by unfold moveStep; rw [hs]; rfl
            rw [this]; exact ih2 s hs
        rw [stop _ _ rfl]
        -- compare position by position
        have hRl : R.filter isLoad = [] := List.eq_nil_of_length_eq_zero hR0
        have hRn : R.filter nonLoad = R := by
          rw [List.filter_eq_self]
          intro x hx
          have := List.filter_eq_nil_iff.mp hRl x hx
          unfold nonLoad
          simp only [Bool.not_eq_true] at this
          rw [this]; rfl
        have hL : (A ++ e :: R).filter isLoad = A.filter isLoad ++ [e] := by
          rw [hassoc, List.filter_append, hA1, hRl, List.append_nil]
        have hN : (A ++ e :: R).filter nonLoad = A.filter nonLoad ++ R := by
          rw [hassoc, List.filter_append, hA2, hRn]
        apply List.ext_getElem?
        intro p
        rw [hL, hN]
        rw [hL] at i4 i5
        simp only [List.length_append, List.length_singleton] at i4 i5
        rw [hA2] at i4 i5
        by_cases p1 : p < pre.length
        · rw [List.getElem?_append_left p1]
          show (s.stmts.set s.first e)[p]? = _
          rw [i2 p p1, hc, List.getElem?_append_left p1]
        · rw [List.getElem?_append_right (by omega)]
          by_cases p2 : p - pre.length < (A.filter isLoad ++ [e]).length
          · rw [List.getElem?_append_left p2]
            have := i3 (p - pre.length) (by rw [hA1]; exact p2)
            rw [hA1, show pre.length + (p - pre.length) = p by omega] at this
            exact this
          · rw [List.getElem?_append_right (by omega)]
            simp only [List.length_append, List.length_singleton] at p2 ⊢
            by_cases p3 : p - pre.length - ((A.filter isLoad).length + 1) < (A.filter nonLoad).length
            · rw [List.getElem?_append_left p3]
              have := i4 _ p3
              rw [show pre.length + ((A.filter isLoad).length + 1) + (p - pre.length - ((A.filter isLoad).length + 1)) = p by omega] at this
              exact this
            · rw [List.getElem?_append_right (by omega)]
              have := i5 p (by omega)
              show (s.stmts.set s.first e)[p]? = _
              rw [this, hc, List.getElem?_append_right (by omega), List.getElem?_append_right (by omega)]
              have : p - pre.length - A.length = (p - pre.length - ((A.filter isLoad).length + 1) - (A.filter nonLoad).length) + 1 := by omega
              rw [this, List.getElem?_cons_succ]
      · have hdone : (s.offset - 1 == 0) = false := by
          have : s.offset - 1 ≠ 0 := by omega
          simpa using this
        rw [hdone]
        have := ih (A ++ [e]) { stmts := s.stmts.set s.first e, first := s.first + 1, offset := s.offset - 1, done := false }
          (by rw [hc, hassoc]) hm (by omega)
          ⟨i1, i2, i3, by rw [← hassoc]; exact i4, by rw [← hassoc]; exact i5,
            by rw [hA1, List.length_append, List.length_singleton]; show s.first + 1 = _; omega,
            by rw [← hassoc, hA1, List.length_append, List.length_singleton]; show s.offset - 1 = _; omega, rfl⟩
        rw [List.length_append, List.length_singleton, ← hassoc] at this
        exact this
    | false =>
      simp only [Bool.false_eq_true, if_false]
      rw [List.filter_cons, he] at htot
      simp only [Bool.false_eq_true, if_false] at htot
      have hK' : 0 < (R.filter isLoad).length := by
        rw [List.filter_cons, he] at hK; exact hK
      have hA1 : (A ++ [e]).filter isLoad = A.filter isLoad := by simp [List.filter_append, he]
      have hA2 : (A ++ [e]).filter nonLoad = A.filter nonLoad ++ [e] := by simp [List.filter_append, nonLoad, he]
      have hoff := hi.offset
      have hpos : pre.length + A.length + s.offset
          = pre.length + ((A ++ e :: R).filter isLoad).length + (A.filter nonLoad).length := by
        rw [hoff]; omega
      have hst : ∀ p, (s.stmts.set (pre.length + A.length + s.offset) e)[p]?
          = if p = pre.length + A.length + s.offset then some e else s.stmts[p]? := by
        intro p
        rw [List.getElem?_set]
        by_cases hp : pre.length + A.length + s.offset = p
        · subst hp
          have : pre.length + A.length + s.offset < s.stmts.length := by rw [hi.len, hlen, hpos]; omega
          simp [this]
        · rw [if_neg hp, if_neg (fun h => hp h.symm)]
      have := ih (A ++ [e]) { s with stmts := s.stmts.set (pre.length + A.length + s.offset) e }
        (by rw [hc, hassoc]) hm hK' ?_
      · rw [List.length_append, List.length_singleton, ← hassoc] at this
        exact this
      · rw [← hassoc]
        refine ⟨by rw [List.length_set]; exact hi.len, ?_, ?_, ?_, ?_, by rw [hA1]; exact hi.first, by rw [hA1]; exact hi.offset, hi.notdone⟩
        · intro p hp; rw [hst, if_neg (by omega)]; exact hi.pre p hp
        · intro k hk; rw [hA1] at hk ⊢; rw [hst, if_neg (by omega)]; exact hi.loads k hk
        · intro k hk
          rw [hA2] at hk ⊢
          rw [List.length_append, List.length_singleton] at hk
          rw [hst]
          by_cases hk2 : k = (A.filter nonLoad).length
          · rw [if_pos (by omega), List.getElem?_append_right (by omega), hk2, Nat.sub_self]; rfl
          · rw [if_neg (by omega), List.getElem?_append_left (by omega)]
            exact hi.others k (by omega)
        · intro p hp
          rw [hA2, List.length_append, List.length_singleton] at hp
          rw [hst, if_neg (by omega)]
          exact hi.rest p (by omega)

theorem preamble_ordinary (l : List Expr) (x : Expr) (hx : x ∈ preamble l) : isOrdinary x = false := by
  unfold preamble at hx
  induction l with
  | nil => simp at hx
  | cons a l ih =>
    rw [List.takeWhile_cons] at hx
    split at hx
    · rename_i h
      rcases List.mem_cons.mp hx with rfl | hx
      · simpa using h
      · exact ih hx
    · cases hx

theorem misplaced_iff (l : List Expr) (i : Nat) (e : Expr) (he : l[i]? = some e) (hb : body l ≠ [])
    (hi : (preamble l).length ≤ i) : misplaced l i = isLoad e := by
  unfold misplaced
  rw [firstStmt_eq, if_neg hb, he]
  simp only
  by_cases h : (preamble l).length = i
  · -- the first ordinary statement itself is not a load
    have hl : l = preamble l ++ body l := (List.takeWhile_append_dropWhile).symm
    obtain ⟨x, t, hx⟩ : ∃ x t, body l = x :: t := List.exists_cons_of_ne_nil hb
    have h2 := he
    rw [hl, ← h, List.getElem?_append_right (Nat.le_refl _), Nat.sub_self, hx] at h2
    simp only [List.getElem?_cons_zero, Option.some.injEq] at h2
    have ho : isOrdinary e = true := by
      have h3 : (!isOrdinary ((body l).head hb)) = false := List.head_dropWhile_not (fun e => !isOrdinary e) hb
      simp only [hx, List.head_cons, h2] at h3
      simpa using h3
    rw [isOrdinary_eq] at ho
    simp at ho
    simp [ho.2]
  · have : (preamble l).length < i := by omega
    simp [this]

theorem moveLoads_eq (l : List Expr) :
    moveLoads l = preamble l ++ ((body l).filter isLoad ++ (body l).filter nonLoad) := by
  have hl : l = preamble l ++ body l := (List.takeWhile_append_dropWhile).symm
  unfold moveLoads
  simp only
  by_cases hb : body l = []
  · have h0 : ((List.range l.length).filter (misplaced l)).length = 0 := by
      rw [List.length_eq_zero_iff, List.filter_eq_nil_iff]
      intro i _
      unfold misplaced
      rw [firstStmt_eq, if_pos hb]
      simp
    rw [h0, hb]
    simp
    conv => lhs; rw [hl, hb]
    simp
  · have hm : ∀ i e, l[i]? = some e → (preamble l).length ≤ i → misplaced l i = isLoad e :=
      fun i e he hi => misplaced_iff l i e he hb hi
    have hlow : ∀ i, i < (preamble l).length → misplaced l i = false := by
      intro i hi
      unfold misplaced
      rw [firstStmt_eq, if_neg hb]
      cases hx : l[i]? with
      | none => rfl
      | some e => simp; intro h; omega
    -- number of misplaced loads
    have hcount : ((List.range l.length).filter (misplaced l)).length = ((body l).filter isLoad).length := by
      have hlen : l.length = (preamble l).length + (body l).length := by
        conv => lhs; rw [hl]
        simp
      rw [hlen, List.range_eq_range', ← List.range'_append_1, List.filter_append, List.length_append]
      have h1 : (List.range' 0 (preamble l).length).filter (misplaced l) = [] := by
        rw [List.filter_eq_nil_iff]
        intro i hi
        rw [List.mem_range'_1] at hi
        rw [hlow i (by omega)]; simp
      rw [h1]
      simp only [List.length_nil, Nat.zero_add]
      have h2 : ∀ (B A : List Expr), l = preamble l ++ (A ++ B) →
          ((List.range' ((preamble l).length + A.length) B.length).filter (misplaced l)).length = (B.filter isLoad).length := by
        intro B
        induction B with
        | nil => intro A _; rfl
        | cons e B ih =>
          intro A hA
          rw [List.length_cons, List.range'_succ, List.filter_cons, List.filter_cons]
          have hidx : (preamble l ++ (A ++ e :: B))[(preamble l).length + A.length]? = some e := by
            rw [List.getElem?_append_right (by omega)]
            rw [Nat.add_sub_cancel_left, List.getElem?_append_right (Nat.le_refl _), Nat.sub_self]
            rfl
          rw [← hA] at hidx
          rw [hm _ _ hidx (by omega)]
          have := ih (A ++ [e]) (by simpa using hA)
          rw [List.length_append, List.length_singleton, ← Nat.add_assoc] at this
          cases isLoad e with
          | true => simp only [if_true, List.length_cons, this]
          | false => simp only [Bool.false_eq_true, if_false, this]
      have := h2 (body l) [] (by simpa using hl)
      simpa using this
    rw [hcount]
    by_cases hK : ((body l).filter isLoad).length = 0
    · rw [if_pos hK]
      have hLn : (body l).filter isLoad = [] := List.length_eq_zero_iff.mp hK
      have hNn : (body l).filter nonLoad = body l := by
        rw [List.filter_eq_self]
        intro x hx
        have := List.filter_eq_nil_iff.mp hLn x hx
        unfold nonLoad
        simp only [Bool.not_eq_true] at this
        rw [this]; rfl
      rw [hLn, hNn]; simpa using hl
    · rw [if_neg hK]
      have hfirst : (firstStmt l).getD 0 = (preamble l).length := by rw [firstStmt_eq, if_neg hb]; rfl
      rw [hfirst]
      have hlen : l.length = (preamble l).length + (body l).length := by
        conv => lhs; rw [hl]
        simp
      rw [hlen, List.range_eq_range', ← List.range'_append_1, List.foldl_append]
      have hskip : ∀ (is : List Nat) (s : MoveState), s.first = (preamble l).length →
          (∀ i ∈ is, i < (preamble l).length) → is.foldl (moveStep l) s = s := by
        intro is
        induction is with
        | nil => intro s _ _; rfl
        | cons i is ih =>
          intro s hs hi
          rw [List.foldl_cons]
          have : moveStep l s i = s := by
            have := hi i (by simp)
            unfold moveStep
            rw [if_pos (by rw [hs]; simp [this])]
          rw [this]; exact ih s hs (fun j hj => hi j (by simp [hj]))
      rw [hskip (List.range' 0 (preamble l).length) { stmts := l, first := (preamble l).length, offset := ((body l).filter isLoad).length } rfl
        (by intro i hi; rw [List.mem_range'_1] at hi; omega)]
      have := loop_from l (preamble l) (body l) [] { stmts := l, first := (preamble l).length, offset := ((body l).filter isLoad).length }
        (by simpa using hl) hm (by omega) ⟨rfl, fun _ _ => rfl, by simp, by simp, fun _ _ => rfl, by simp, by simp, rfl⟩
      simpa using this

/-- **C16**: the statements after the rewrite are: everything up to the first ordinary statement unchanged, then all load
statements that came later, in order, then everything else, in order. -/
theorem C16_moves_loads (l : List Expr) :
    moveLoads l = preamble l ++ (body l).filter isLoad ++ (body l).filter nonLoad := by
  rw [moveLoads_eq, List.append_assoc]

theorem filter_partition_perm (l : List Expr) : (l.filter isLoad ++ l.filter nonLoad).Perm l :=
  List.filter_append_perm isLoad l

/-- **C16**: it is a permutation that keeps the relative order of loads and of all other statements, and after it no load
follows an ordinary statement. -/
theorem C16_order (l : List Expr) :
    (moveLoads l).Perm l ∧
    (moveLoads l).filter isLoad = l.filter isLoad ∧
    (moveLoads l).filter nonLoad = l.filter nonLoad ∧
    (moveLoads l).Pairwise (fun a b => isOrdinary a = true → isLoad b = false) := by
  have hl : l = preamble l ++ body l := (List.takeWhile_append_dropWhile).symm
  have h1 : ∀ l : List Expr, (l.filter nonLoad).filter isLoad = [] := by
    intro l
    rw [List.filter_eq_nil_iff]; intro x hx
    have := (List.mem_filter.mp hx).2
    unfold nonLoad at this; simp at this; simp [this]
  have h2 : ∀ l : List Expr, (l.filter isLoad).filter nonLoad = [] := by
    intro l
    rw [List.filter_eq_nil_iff]; intro x hx
    have := (List.mem_filter.mp hx).2
    unfold nonLoad; simp [this]
  have h3 : ∀ l : List Expr, (l.filter isLoad).filter isLoad = l.filter isLoad := by
    intro l; rw [List.filter_filter]; simp
  have h4 : ∀ l : List Expr, (l.filter nonLoad).filter nonLoad = l.filter nonLoad := by
    intro l; rw [List.filter_filter]; simp
  rw [moveLoads_eq]
  refine ⟨?_, ?_, ?_, ?_⟩
  · conv => rhs; rw [hl]
    exact List.Perm.append_left _ (filter_partition_perm (body l))
  · conv => rhs; rw [hl]
    simp only [List.filter_append, h1, h3, List.append_nil]
  · conv => rhs; rw [hl]
    simp only [List.filter_append, h2, h4, List.nil_append]
  · rw [List.pairwise_append, List.pairwise_append]
    have hpre : ∀ x ∈ preamble l, isOrdinary x = false := by
      intro x hx
      have : ∀ (l : List Expr) x, x ∈ l.takeWhile (fun e => !isOrdinary e) → isOrdinary x = false := by
        intro l
        induction l with
        | nil => simp
        | cons a l ih =>
          intro x hx
          rw [List.takeWhile_cons] at hx
          split at hx
          · rename_i h
            rcases List.mem_cons.mp hx with rfl | hx
            · simpa using h
            · exact ih x hx
          · cases hx
      exact this l x hx
    have hP : ∀ (m : List Expr) (P : Expr → Expr → Prop), (∀ a ∈ m, ∀ b, P a b) → m.Pairwise P := by
      intro m P
      induction m with
      | nil => intro _; exact .nil
      | cons a m ih => intro h; exact List.pairwise_cons.mpr ⟨fun b _ => h a (by simp) b, ih (fun x hx => h x (by simp [hx]))⟩
    have hQ : ∀ (m : List Expr) (P : Expr → Expr → Prop), (∀ b ∈ m, ∀ a, P a b) → m.Pairwise P := by
      intro m P
      induction m with
      | nil => intro _; exact .nil
      | cons a m ih => intro h; exact List.pairwise_cons.mpr ⟨fun b hb => h b (by simp [hb]) a, ih (fun x hx => h x (by simp [hx]))⟩
    have hload : ∀ a ∈ (body l).filter isLoad, isOrdinary a = false := by
      intro a ha
      have := (List.mem_filter.mp ha).2
      rw [isOrdinary_eq, this]; simp
    have hnl : ∀ b ∈ (body l).filter nonLoad, isLoad b = false := by
      intro b hb
      have := (List.mem_filter.mp hb).2
      unfold nonLoad at this; simpa using this
    refine ⟨hP _ _ (fun a ha b h => by rw [hpre a ha] at h; cases h), ⟨?_, ?_, ?_⟩, ?_⟩
    · exact hP _ _ (fun a ha b h => by rw [hload a ha] at h; cases h)
    · exact hQ _ _ (fun b hb a _ => hnl b hb)
    · intro a ha b _ h; rw [hload a ha] at h; cases h
    · intro a ha b _ h; rw [hpre a ha] at h; cases h

/-- **C16**: it is idempotent. -/
theorem C16_idempotent (l : List Expr) : moveLoads (moveLoads l) = moveLoads l := by
  by_cases hb : body l = []
  · have : moveLoads l = l := by
      rw [moveLoads_eq, hb]
      have hl : l = preamble l ++ body l := (List.takeWhile_append_dropWhile).symm
      rw [hb] at hl; simpa using hl.symm
    rw [this, this]
  · -- preamble of the result: old preamble and the moved loads; then the ordinary statement
    have hload : ∀ a ∈ (body l).filter isLoad, isOrdinary a = false := by
      intro a ha
      have := (List.mem_filter.mp ha).2
      rw [isOrdinary_eq, this]; simp
    have hpre : ∀ x ∈ preamble l, isOrdinary x = false := by
      intro x hx
      exact preamble_ordinary l x hx
    obtain ⟨x, t, hx⟩ : ∃ x t, body l = x :: t := List.exists_cons_of_ne_nil hb
    have hox : isOrdinary x = true := by
      have h3 : (!isOrdinary ((body l).head hb)) = false := List.head_dropWhile_not (fun e => !isOrdinary e) hb
      simp only [hx, List.head_cons] at h3
      simpa using h3
    have hxl : isLoad x = false := by rw [isOrdinary_eq] at hox; simp at hox; exact hox.2
    have hN : (body l).filter nonLoad = x :: t.filter nonLoad := by rw [hx, List.filter_cons]; simp [nonLoad, hxl]
    have hall : ∀ a ∈ preamble l ++ (body l).filter isLoad, (!isOrdinary a) = true := by
      intro a ha
      rcases List.mem_append.mp ha with h | h
      · rw [hpre a h]; rfl
      · rw [hload a h]; rfl
    have hpre2 : preamble (moveLoads l) = preamble l ++ (body l).filter isLoad := by
      rw [C16_moves_loads]
      unfold preamble at hall ⊢
      rw [List.takeWhile_append_of_pos hall, hN, List.takeWhile_cons, hox]
      simp
    have hbody2 : body (moveLoads l) = (body l).filter nonLoad := by
      rw [C16_moves_loads]
      unfold body at hall ⊢
      rw [List.dropWhile_append_of_pos hall]
      change List.dropWhile _ ((body l).filter nonLoad) = _
      rw [hN, List.dropWhile_cons, hox]
      simp [← hN, body]
    rw [C16_moves_loads (moveLoads l), hpre2, hbody2, C16_moves_loads l]
    have h1 : ((body l).filter nonLoad).filter isLoad = [] := by
      rw [List.filter_eq_nil_iff]; intro x hx
      have := (List.mem_filter.mp hx).2
      unfold nonLoad at this; simp at this; simp [this]
    have h4 : ((body l).filter nonLoad).filter nonLoad = (body l).filter nonLoad := by
      rw [List.filter_filter]; simp
    rw [h1, h4]; simp

theorem anyFold (text : Bytes) (l : List (List Expr × Expr)) (b : Bool) :
    l.foldl (fun (s : Bool) p => s || hasComment p.2 text) b = (b || l.any fun p => hasComment p.2 text) := by
  induction l generalizing b with
  | nil => simp
  | cons p l ih => rw [List.foldl_cons, ih, List.any_cons, Bool.or_assoc]

/-- `isCommentAnywhere` looks at every node of the file: stopping below a marked node does not matter. -/
theorem isCommentAnywhere_eq (f : File) (text : Bytes) :
    isCommentAnywhere f text = (occ [] f.toExpr).any fun p => hasComment p.2 text := by
  unfold isCommentAnywhere
  rw [C26_interruptable (fun found x _ => found || hasComment x text) (fun x _ => hasComment x text), anyFold, Bool.false_or]
  rw [Bool.eq_iff_iff, List.any_eq_true, List.any_eq_true]
  constructor
  · rintro ⟨p, hp, h⟩; exact ⟨p, (List.mem_filter.mp hp).1, h⟩
  · rintro ⟨p, hp, h⟩
    -- the first marked node on the way to p
    have key : ∀ (v : Expr) (stk : List Expr), notBelowStop (fun x _ => hasComment x text) stk = true →
        ∀ p ∈ occ stk v, hasComment p.2 text = true →
        ∃ q ∈ occ stk v, notBelowStop (fun x _ => hasComment x text) q.1 = true ∧ hasComment q.2 text = true := by
      intro v
      induction v using slot_induction with
      | h v ih =>
        intro stk hs p hp hc
        rw [occ_slots] at hp ⊢
        cases hv : v.isNil with
        | true => rw [hv] at hp; simp at hp
        | false =>
          rw [hv] at hp
          simp only [Bool.false_eq_true, if_false, List.mem_cons, List.mem_flatMap] at hp ⊢
          cases hvc : hasComment v text with
          | true => exact ⟨(stk, v), Or.inl rfl, hs, hvc⟩
          | false =>
            rcases hp with rfl | ⟨x, hx, hp⟩
            · rw [hvc] at hc; cases hc
            · obtain ⟨q, hq, h1, h2⟩ := ih x hx _ (by rw [notBelowStop_snoc, hs, hvc]; rfl) p hp hc
              exact ⟨q, Or.inr ⟨x, hx, hq⟩, h1, h2⟩
    obtain ⟨q, hq, h1, h2⟩ := key f.toExpr [] rfl p hp h
    exact ⟨q, List.mem_filter.mpr ⟨hq, h1⟩, h2⟩

theorem isCommentAnywhere_of (f : File) (text : Bytes) (p) (hp : p ∈ occ [] f.toExpr) (h : hasComment p.2 text = true) :
    isCommentAnywhere f text = true := by
  rw [isCommentAnywhere_eq, List.any_eq_true]; exact ⟨p, hp, h⟩

theorem isCommentAnywhere_not (f : File) (text : Bytes) (h : ∀ p ∈ occ [] f.toExpr, hasComment p.2 text = false) :
    isCommentAnywhere f text = false := by
  rw [isCommentAnywhere_eq, List.any_eq_false]
  intro p hp; rw [h p hp]; simp

/-- **C16**: WORKSPACE files are not touched, nor files with a disabling comment. -/
theorem C16_disabled (f : File)
    (h : f.type = .workspace ∨ ∃ p ∈ occ [] f.toExpr, hasComment p.2 b!"disable=load-on-top" = true) :
    moveLoadOnTop f = f := by
  unfold moveLoadOnTop
  by_cases hw : f.type = .workspace
  · rw [if_pos hw]
  · rw [if_neg hw, if_pos]
    rcases h with h | ⟨p, hp, hc⟩
    · exact absurd h hw
    · exact isCommentAnywhere_of _ _ p hp hc

/-- otherwise its statements are rewritten as above -/
theorem C16_enabled (f : File) (h1 : f.type ≠ .workspace)
    (h2 : ∀ p ∈ occ [] f.toExpr, hasComment p.2 b!"disable=load-on-top" = false) :
    moveLoadOnTop f = { f with stmts := moveLoads f.stmts } := by
  unfold moveLoadOnTop
  rw [if_neg h1, if_neg]
  rw [isCommentAnywhere_not _ _ h2]; simp

def ld (m : Bytes) : Expr := .load {} {} { value := m } [] [] {} true
def callS (n : Bytes) : Expr := .call {} (.ident { name := n }) {} [] {} false false

example : moveLoads [.string { value := b!"doc" }, ld b!"a", callS b!"f", ld b!"b", callS b!"g", ld b!"c", callS b!"h"]
    = [.string { value := b!"doc" }, ld b!"a", ld b!"b", ld b!"c", callS b!"f", callS b!"g", callS b!"h"] := by rfl

end Verif.Props.LoadTop
