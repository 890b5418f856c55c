import Verif.Proofs.Neat
/-
Handing out comments keeps a tree neat.
-/
namespace Verif.Printed
open Verif Verif.Syntax Verif.Print Verif.Comm Verif.Parser Verif.Props.Comments

set_option linter.unusedSimpArgs false

theorem after_suf (x : Expr) (l) : afterC (sufE x l).1 = afterC x := by
  cases x <;> simp only [sufE] <;> rfl
theorem after_lin (x : Expr) (l) : afterC (linE x l).1 = afterC x := by
  cases x <;> simp only [linE] <;> rfl
theorem isNil_suf (x : Expr) (l) : (sufE x l).1.isNil = x.isNil := by
  cases x <;> simp only [sufE] <;> rfl
theorem isNil_lin (x : Expr) (l) : (linE x l).1.isNil = x.isNil := by
  cases x <;> simp only [linE] <;> rfl
theorem length_suf (xs : List Expr) : ∀ l, (sufL xs l).1.length = xs.length := by
  induction xs with
  | nil => intro l; rfl
  | cons x xs ih => intro l; simp only [sufL, List.length_cons, ih]
theorem length_lin (xs : List Expr) : ∀ l, (linL xs l).1.length = xs.length := by
  induction xs with
  | nil => intro l; rfl
  | cons x xs ih => intro l; simp only [linL, List.length_cons, ih]
theorem empty_suf (xs : List Expr) (l) : (sufL xs l).1.isEmpty = xs.isEmpty := by cases xs <;> rfl
theorem empty_lin (xs : List Expr) (l) : (linL xs l).1.isEmpty = xs.isEmpty := by cases xs <;> rfl

theorem takeSuffix_twice (e : Nat) : ∀ l, takeSuffix e (takeSuffix e l).2 = ([], (takeSuffix e l).2)
  | [] => rfl
  | c :: l => by
    by_cases h : e ≤ c.start.byte
    · have : (takeSuffix e (c :: l)).2 = (takeSuffix e l).2 := by rw [takeSuffix, if_pos h]
      rw [this]; exact takeSuffix_twice e l
    · have : takeSuffix e (c :: l) = ([], c :: l) := by rw [takeSuffix, if_neg h]
      rw [this]; exact this

/-- The closing bracket gets nothing when the node that ends there was served before. -/
theorem neatEnd_suf (e : EndN) (c : Comments) (p : Pos) (l) (hp : p = e.endPos) (h : neatEnd e = true) :
    neatEnd (sufEnd e (sufC c p l).2).1 = true := by
  subst hp
  simp only [neatEnd, Bool.and_eq_true, List.isEmpty_iff] at h
  simp only [neatEnd, sufEnd, sufC, takeSuffix_twice, h, List.append_nil, List.reverse_nil, List.isEmpty_nil, Bool.and_self]

theorem neatEnd_lin (e : EndN) (l) (h : neatEnd e = true) : neatEnd (linEnd e l).1 = true := h

theorem neatLoad_suf : ∀ (fs ts : List IdentN) (l), neatLoad fs ts = true → neatLoad (sufLoad fs ts l).1 (sufLoad fs ts l).2.1 = true
  | [], [], _, h => h
  | [], _ :: _, _, h => h
  | _ :: _, [], _, h => h
  | f :: fs, t :: ts, l, h => by
    simp only [neatLoad, Bool.and_eq_true] at h
    have := neatLoad_suf fs ts l h.2
    simp only [sufLoad, neatLoad, Bool.and_eq_true]
    exact ⟨h.1, this⟩
theorem neatLoad_lin : ∀ (fs ts : List IdentN) (l), neatLoad fs ts = true → neatLoad (linLoad fs ts l).1 (linLoad fs ts l).2.1 = true
  | [], [], _, h => h
  | [], _ :: _, _, h => h
  | _ :: _, [], _, h => h
  | f :: fs, t :: ts, l, h => by
    simp only [neatLoad, Bool.and_eq_true] at h
    have := neatLoad_lin fs ts (linIdent f (linIdent t l).2).2 h.2
    simp only [linLoad, neatLoad, Bool.and_eq_true]
    exact ⟨h.1, this⟩

theorem neat_suf (x : Expr) : neat x = true → ∀ l, neat (sufE x l).1 = true := by
  refine Expr.rec (motive_1 := fun x => neat x = true → ∀ l, neat (sufE x l).1 = true)
    (motive_2 := fun xs => (neatL xs = true → ∀ l, neatL (sufL xs l).1 = true) ∧ (neatS xs = true → ∀ l, neatS (sufL xs l).1 = true))
    ?_ ?_ ?_ ?_ ?_ ?_ ?_ ?_ ?_ ?_ ?_ ?_ ?_ ?_ ?_ ?_ ?_ ?_ ?_ ?_ ?_ ?_ ?_ ?_ ?_ ?_ ?_ ?_ ?_ ?_ ?_ ?_ ?_ x
  case refine_17 => -- tuple
    intro c nb s xs e a b hxs hn l
    simp only [neat, Bool.and_eq_true] at hn
    simp only [sufE, neat, Bool.and_eq_true, hxs.1 hn.1, true_and]
    cases nb with
    | true => exact hn.2
    | false => exact neatEnd_suf _ _ _ _ rfl hn.2
  case refine_30 => -- if
    intro c i co t e f hco ht hf hn l
    simp only [neat, neatElse, ← afterC.eq_1, Bool.and_eq_true, List.isEmpty_iff] at hn
    simp only [sufE, neat, neatElse, ← afterC.eq_1, after_suf, Bool.and_eq_true, List.isEmpty_iff, hn.1.1.1.1, hn.1.1.1.2.2, List.reverse_nil,
      hco hn.1.1.1.2.1, ht.2 hn.1.1.2, hf.2 hn.2, true_and, and_true, empty_suf]
    cases f with
    | nil => exact hn.1.2
    | cons y f => exact ⟨rfl, hn.1.2.2⟩
  case refine_32 => exact ⟨fun _ _ => rfl, fun _ _ => rfl⟩
  case refine_33 =>
    intro x l hx hl
    constructor
    · intro hn l
      simp only [neatL, ← afterC.eq_1, Bool.and_eq_true, List.isEmpty_iff] at hn
      simp only [sufL, neatL, ← afterC.eq_1, after_suf, Bool.and_eq_true, List.isEmpty_iff, hn.1.2, hx hn.1.1, hl.1 hn.2, and_self]
    · intro hn l
      simp only [neatS, Bool.and_eq_true] at hn
      simp only [sufL, neatS, Bool.and_eq_true, hx hn.1, hl.2 hn.2, and_self]
  all_goals intros
  all_goals rename_i hn _
  all_goals simp only [neat, ← afterC.eq_1, Bool.and_eq_true, List.isEmpty_iff] at hn
  all_goals first
    | (exfalso; exact Bool.noConfusion hn)
    | (simp_all only [forall_const, sufE, neat, ← afterC.eq_1, after_suf, isNil_suf, length_suf, Bool.and_eq_true, List.isEmpty_iff, and_self, List.reverse_nil, neatLoad_suf, sufIdent, sufString]; done)
    | (have hE := fun c l => neatEnd_suf _ c _ l rfl hn.2; simp_all only [forall_const, sufE, neat, Expr.endPos, ← afterC.eq_1, after_suf, Bool.and_eq_true, List.isEmpty_iff, and_self, neatLoad_suf, sufString]; first | done | exact ⟨⟨hn.1.1, trivial⟩, trivial⟩)

theorem neat_lin (x : Expr) : neat x = true → ∀ l, neat (linE x l).1 = true := by
  refine Expr.rec (motive_1 := fun x => neat x = true → ∀ l, neat (linE x l).1 = true)
    (motive_2 := fun xs => (neatL xs = true → ∀ l, neatL (linL xs l).1 = true) ∧ (neatS xs = true → ∀ l, neatS (linL xs l).1 = true))
    ?_ ?_ ?_ ?_ ?_ ?_ ?_ ?_ ?_ ?_ ?_ ?_ ?_ ?_ ?_ ?_ ?_ ?_ ?_ ?_ ?_ ?_ ?_ ?_ ?_ ?_ ?_ ?_ ?_ ?_ ?_ ?_ ?_ x
  case refine_17 => -- tuple
    intro c nb s xs e a b hxs hn l
    simp only [neat, Bool.and_eq_true] at hn
    simp only [linE, neat, Bool.and_eq_true, hxs.1 hn.1, true_and]
    cases nb <;> exact hn.2
  case refine_30 => -- if
    intro c i co t e f hco ht hf hn l
    simp only [neat, neatElse, ← afterC.eq_1, Bool.and_eq_true, List.isEmpty_iff] at hn
    simp only [linE, linC, neat, neatElse, ← afterC.eq_1, after_lin, Bool.and_eq_true, List.isEmpty_iff, hn.1.1.1.1, hn.1.1.1.2.2,
      hco hn.1.1.1.2.1, ht.2 hn.1.1.2, hf.2 hn.2, true_and, and_true, empty_lin]
    cases f with
    | nil => exact hn.1.2
    | cons y f => exact ⟨rfl, hn.1.2.2⟩
  case refine_32 => exact ⟨fun _ _ => rfl, fun _ _ => rfl⟩
  case refine_33 =>
    intro x l hx hl
    constructor
    · intro hn l
      simp only [neatL, ← afterC.eq_1, Bool.and_eq_true, List.isEmpty_iff] at hn
      simp only [linL, neatL, ← afterC.eq_1, after_lin, Bool.and_eq_true, List.isEmpty_iff, hn.1.2, hx hn.1.1, hl.1 hn.2, and_self]
    · intro hn l
      simp only [neatS, Bool.and_eq_true] at hn
      simp only [linL, neatS, Bool.and_eq_true, hx hn.1, hl.2 hn.2, and_self]
  all_goals intros
  all_goals rename_i hn _
  all_goals simp only [neat, ← afterC.eq_1, Bool.and_eq_true, List.isEmpty_iff] at hn
  all_goals first
    | (exfalso; exact Bool.noConfusion hn)
    | (simp_all only [forall_const, linE, linC, neat, ← afterC.eq_1, after_lin, isNil_lin, length_lin, Bool.and_eq_true, List.isEmpty_iff, and_self, List.reverse_nil, neatLoad_lin, linIdent, linString]; done)
    | (have hE := fun l => neatEnd_lin _ l hn.2; simp_all only [forall_const, linE, neat, Expr.endPos, ← afterC.eq_1, after_lin, Bool.and_eq_true, List.isEmpty_iff, and_self, neatLoad_lin, linString]; first | done | exact ⟨⟨hn.1.1, trivial⟩, trivial⟩)


theorem neatS_suf : ∀ xs : List Expr, neatS xs = true → ∀ l, neatS (sufL xs l).1 = true
  | [], _, _ => rfl
  | x :: xs, h, l => by
    simp only [neatS, Bool.and_eq_true] at h
    simp only [sufL, neatS, Bool.and_eq_true, neat_suf x h.1, neatS_suf xs h.2, and_self]
theorem neatS_lin : ∀ xs : List Expr, neatS xs = true → ∀ l, neatS (linL xs l).1 = true
  | [], _, _ => rfl
  | x :: xs, h, l => by
    simp only [neatS, Bool.and_eq_true] at h
    simp only [linL, neatS, Bool.and_eq_true, neat_lin x h.1, neatS_lin xs h.2, and_self]

end Verif.Printed
