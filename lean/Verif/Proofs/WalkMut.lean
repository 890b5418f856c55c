import Verif.Model.Numbers
import Verif.Proofs.MapE
/- In-place traversals without state: `walkMut`. -/
namespace Verif.Walk
open Verif Verif.Syntax Verif.Rewrite

/-- `walkMut` with explicit budget and stack -/
def mutN (g : Expr → List Expr → Expr) (n : Nat) (v : Expr) (stk : List Expr) : Expr :=
  (editN (fun (_ : Unit) x stk => ((), g x stk, false)) n () v stk).2.1

theorem walkMut_eq (g : Expr → List Expr → Expr) (v : Expr) : walkMut g v = mutN g (size v) v [] := rfl

theorem mut_repl (g : Expr → List Expr → Expr) (n : Nat) (v : Expr) (stk : List Expr) :
    (editN (fun (_ : Unit) x stk => ((), g x stk, false)) n () v stk).2.2 = false := by
  cases n with
  | zero => rfl
  | succ n => rw [editN]; split <;> rfl

theorem mutFold (g : Expr → List Expr → Expr) (n : Nat) (stk : List Expr) (l : List Expr) : ∀ (ws : List Bool) (acc : List Expr),
    ws.length = l.length →
    ((l.zip ws).foldl (fun (acc : Unit × List Expr) xw =>
      ((editN (fun (_ : Unit) x stk => ((), g x stk, false)) n acc.1 xw.1 stk).1,
        acc.2 ++ [if xw.2 && (editN (fun (_ : Unit) x stk => ((), g x stk, false)) n acc.1 xw.1 stk).2.2 then xw.1
          else (editN (fun (_ : Unit) x stk => ((), g x stk, false)) n acc.1 xw.1 stk).2.1])) ((), acc)).2
      = acc ++ l.map (fun x => mutN g n x stk) := by
  induction l with
  | nil => intro ws acc _; simp
  | cons x l ih =>
    intro ws acc hw
    cases ws with
    | nil => simp at hw
    | cons w ws =>
      simp only [List.zip_cons_cons, List.foldl_cons, mut_repl, Bool.and_false, Bool.false_eq_true, if_false]
      have := ih ws (acc ++ [mutN g n x stk]) (by simpa using hw)
      rw [List.map_cons]
      rw [List.append_assoc] at this
      exact this

/-- one step of an in-place traversal -/
theorem mutN_succ (g : Expr → List Expr → Expr) (n : Nat) (v : Expr) (stk : List Expr) :
    mutN g (n+1) v stk = if v.isNil then v else
      withSlots (g v stk) ((slots (g v stk)).map (fun x => mutN g n x (stk ++ [g v stk]))) := by
  rw [mutN, editN]
  split
  · rfl
  · dsimp only
    rw [mutFold g n _ _ _ [] (weakSlots_length _)]
    rfl

theorem mutN_zero (g : Expr → List Expr → Expr) (v : Expr) (stk : List Expr) : mutN g 0 v stk = v := rfl

theorem eq_nil_of_isNil {v : Expr} (h : v.isNil = true) : v = .nil := by
  cases v <;> simp_all [Expr.isNil]

theorem forall2_map_right {R : Expr → Expr → Prop} (l : List Expr) (f : Expr → Expr) (h : ∀ x ∈ l, R x (f x)) :
    Forall2 R l (l.map f) := by
  induction l with
  | nil => exact .nil
  | cons x l ih => exact .cons (h x (by simp)) (ih (fun y hy => h y (by simp [hy])))

/-- An in-place traversal whose callback keeps names names and trees well formed. -/
theorem mutN_ok (g : Expr → List Expr → Expr) (hg : ∀ v stk, treeOk v → leafKept v (g v stk) ∧ treeOk (g v stk)) :
    ∀ n v stk, treeOk v → leafKept v (mutN g n v stk) ∧ treeOk (mutN g n v stk) := by
  intro n v stk h
  have := editN_mapE (fun _ => Expr.nil) (fun (_ : Unit) x stk => ((), g x stk, false))
    (fun s v stk hv => ⟨by cases (g v stk) <;> cases v <;> rfl, hg v stk hv⟩) n () v stk h
  exact this.2

/-- the slots of the traversed node are the traversed slots -/
theorem mutN_slots (g : Expr → List Expr → Expr) (hg : ∀ v stk, treeOk v → leafKept v (g v stk) ∧ treeOk (g v stk))
    (n : Nat) (v : Expr) (stk : List Expr) (h : treeOk v) :
    fits (g v stk) ((slots (g v stk)).map (fun x => mutN g n x (stk ++ [g v stk]))) := by
  have h1 := (treeOk_iff _).mp (hg v stk h).2
  refine fits_of_kept _ h1.1 _ (forall2_map_right _ _ ?_)
  intro x hx
  exact (mutN_ok g hg n x _ (h1.2 x hx)).1

/-- **Generic.** A property of nodes that the callback establishes and that writing back slots keeps holds everywhere
afterwards. -/
theorem mutN_all (g : Expr → List Expr → Expr) (hg : ∀ v stk, treeOk v → leafKept v (g v stk) ∧ treeOk (g v stk))
    (hs : ∀ v stk, (slots (g v stk)) = slots v) (P : Expr → Prop) (hnil : P .nil)
    (hP : ∀ v stk k, k.length = (slots v).length → P (withSlots (g v stk) k)) :
    ∀ n v stk, size v ≤ n → treeOk v → All P (mutN g n v stk) := by
  intro n
  induction n with
  | zero => intro v stk hv; have := size_pos v; omega
  | succ n ih =>
    intro v stk hv hok
    rw [mutN_succ]
    split
    · rename_i h
      rw [eq_nil_of_isNil h]
      exact (All_iff _ _).mpr ⟨hnil, by simp [slots]⟩
    · have hfit := mutN_slots g hg n v stk hok
      refine (All_iff _ _).mpr ⟨hP v stk _ (by rw [List.length_map, hs]), ?_⟩
      rw [slots_withSlots _ _ hfit]
      intro y hy
      obtain ⟨x, hx, rfl⟩ := List.mem_map.mp hy
      rw [hs] at hx
      have := size_slot_lt hx
      exact ih x _ (by omega) (((treeOk_iff v).mp hok).2 x hx)

/-- A traversal that finds nothing to change changes nothing. -/
theorem mutN_fix (g : Expr → List Expr → Expr) (P : Expr → Prop) (hP : ∀ v stk, P v → g v stk = v) :
    ∀ n v stk, treeOk v → All P v → mutN g n v stk = v := by
  intro n
  induction n with
  | zero => intro v stk _ _; rfl
  | succ n ih =>
    intro v stk hok h
    rw [mutN_succ]
    split
    · rfl
    · have h1 := (All_iff P v).mp h
      have h2 := (treeOk_iff v).mp hok
      rw [hP v stk h1.1]
      have : (slots v).map (fun x => mutN g n x (stk ++ [v])) = (slots v).map id :=
        List.map_congr_left (fun x hx => ih x _ (h2.2 x hx) (h1.2 x hx))
      rw [this, List.map_id, withSlots_slots v h2.1]

end Verif.Walk
