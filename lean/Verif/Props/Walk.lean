import Verif.Proofs.Walk
/-
C26: `Walk` calls the callback exactly once for every node, parents first, in field order, with the exact stack of
ancestors; `WalkInterruptable` skips exactly the nodes below a node where it was told to stop; `Edit` with an identity
callback leaves the tree unchanged; replacing dict entries and comprehension clauses has no effect on the tree.
-/
namespace Verif.Props.Walk
open Verif Verif.Syntax Verif.Walk

/-! ### Specification: all nodes of a tree, each with its ancestors (outermost first), in preorder, spelled out field
by field. Not part of the tree for this purpose: the name and type of a `typedIdent`, and the return type of a `def`
(the code does not visit them). -/

mutual
def occ (stk : List Expr) (v : Expr) : List (List Expr × Expr) :=
  match v with
  | .nil => []
  | .commentBlock .. | .ident .. | .typedIdent .. | .branch .. | .literal .. | .string .. => [(stk, v)]
  | .call _ x _ l .. => (stk, v) :: (occ (stk ++ [v]) x ++ occL (stk ++ [v]) l)
  | .dot _ x .. => (stk, v) :: occ (stk ++ [v]) x
  | .compr _ _ _ b cl .. => (stk, v) :: (occ (stk ++ [v]) b ++ occL (stk ++ [v]) cl)
  | .forClause _ _ vars _ x => (stk, v) :: (occ (stk ++ [v]) vars ++ occ (stk ++ [v]) x)
  | .ifClause _ _ x => (stk, v) :: occ (stk ++ [v]) x
  | .keyValue _ k _ x => (stk, v) :: (occ (stk ++ [v]) k ++ occ (stk ++ [v]) x)
  | .dict _ _ l .. => (stk, v) :: occL (stk ++ [v]) l
  | .list _ _ l .. => (stk, v) :: occL (stk ++ [v]) l
  | .set _ _ l .. => (stk, v) :: occL (stk ++ [v]) l
  | .tuple _ _ _ l .. => (stk, v) :: occL (stk ++ [v]) l
  | .unary _ _ _ x => (stk, v) :: occ (stk ++ [v]) x
  | .binary _ x _ _ _ y => (stk, v) :: (occ (stk ++ [v]) x ++ occ (stk ++ [v]) y)
  | .assign _ x _ _ _ y => (stk, v) :: (occ (stk ++ [v]) x ++ occ (stk ++ [v]) y)
  | .paren _ _ x .. => (stk, v) :: occ (stk ++ [v]) x
  | .slice _ x _ f _ t _ s _ =>
      (stk, v) :: (occ (stk ++ [v]) x ++ occ (stk ++ [v]) f ++ occ (stk ++ [v]) t ++ occ (stk ++ [v]) s)
  | .index _ x _ y _ => (stk, v) :: (occ (stk ++ [v]) x ++ occ (stk ++ [v]) y)
  | .lambda _ _ ps b => (stk, v) :: (occL (stk ++ [v]) ps ++ occL (stk ++ [v]) b)
  | .cond _ t _ te _ e => (stk, v) :: (occ (stk ++ [v]) t ++ occ (stk ++ [v]) te ++ occ (stk ++ [v]) e)
  | .load _ _ m f t .. => (stk, v) :: (stk ++ [v], .string m) ::
      (f.zip t).flatMap fun p => [(stk ++ [v], .ident p.1), (stk ++ [v], .ident p.2)]
  | .defS _ _ _ ps b .. => (stk, v) :: (occL (stk ++ [v]) ps ++ occL (stk ++ [v]) b)
  | .returnS _ _ r => (stk, v) :: occ (stk ++ [v]) r
  | .forS _ _ vars x b => (stk, v) :: (occ (stk ++ [v]) vars ++ occ (stk ++ [v]) x ++ occL (stk ++ [v]) b)
  | .ifS _ _ c t _ f => (stk, v) :: (occ (stk ++ [v]) c ++ occL (stk ++ [v]) t ++ occL (stk ++ [v]) f)
  | .file _ l => (stk, v) :: occL (stk ++ [v]) l
def occL (stk : List Expr) : List Expr → List (List Expr × Expr)
  | [] => []
  | x :: l => occ stk x ++ occL stk l
end

theorem occL_eq (stk : List Expr) (l : List Expr) : occL stk l = l.flatMap (occ stk) := by
  induction l with
  | nil => rfl
  | cons x l ih => simp [occL, ih]

theorem interleave_occ (stk : List Expr) (f t : List IdentN) :
    (interleave f t).flatMap (occ stk)
      = (f.zip t).flatMap fun p => [(stk, .ident p.1), (stk, .ident p.2)] := by
  induction f generalizing t with
  | nil => simp [interleave]
  | cons x f ih =>
    cases t with
    | nil => simp [interleave]
    | cons y t => simp [interleave, ih, occ]

/-- `occ` unfolded along the slots -/
theorem occ_slots (stk : List Expr) (v : Expr) :
    occ stk v = if v.isNil then [] else (stk, v) :: (slots v).flatMap (occ (stk ++ [v])) := by
  cases v <;> simp [occ, slots, Expr.isNil, occL_eq]
  case load => rw [interleave_occ]

/-! ### Walk -/

theorem foldl_flatMap' {α β γ} (l : List α) (g : α → List β) (f : γ → β → γ) (s : γ) :
    (l.flatMap g).foldl f s = l.foldl (fun s x => (g x).foldl f s) s := by
  induction l generalizing s with
  | nil => rfl
  | cons x l ih => simp [List.flatMap_cons, List.foldl_append, ih]

theorem walkN_occ {σ} (f : σ → Expr → List Expr → σ) (v : Expr) :
    ∀ n s stk, size v ≤ n →
      walkN (fun s x stk => (f s x stk, false)) n s v stk = (occ stk v).foldl (fun s p => f s p.2 p.1) s := by
  induction v using slot_induction with
  | h v ih =>
    intro n s stk hn
    have hp := size_pos v
    obtain ⟨n, rfl⟩ : ∃ k, n = k + 1 := ⟨n - 1, by omega⟩
    rw [walkN_succ, occ_slots]
    cases v.isNil with
    | true => rfl
    | false =>
      simp only [Bool.false_eq_true, if_false, List.foldl_cons]
      rw [foldl_flatMap']
      apply foldl_congr_mem
      intro s x hx
      have := size_slot_lt hx
      exact ih x hx n s _ (by omega)

/-- **C26**: for every tree and every callback (with any state of its own), `Walk` calls the callback exactly on
the nodes of the tree, each once, in preorder, with its exact ancestors. -/
theorem C26_walk_visits_every_node_once {σ : Type} (f : σ → Expr → List Expr → σ) (s : σ) (v : Expr) :
    walk f s v = (occ [] v).foldl (fun s p => f s p.2 p.1) s :=
  walkN_occ f v _ _ _ (Nat.le_refl _)

/-- In particular the visit log of `Walk` is the preorder listing. -/
theorem C26_walk_log (v : Expr) :
    walk (fun (log : List (List Expr × Expr)) x stk => log ++ [(stk, x)]) [] v = occ [] v := by
  rw [C26_walk_visits_every_node_once]
  suffices ∀ (l acc : List (List Expr × Expr)), l.foldl (fun s p => s ++ [(p.1, p.2)]) acc = acc ++ l by
    simpa using this (occ [] v) []
  intro l
  induction l with
  | nil => simp
  | cons x l ih => intro acc; simp [ih]

/-- the first element of a non-nil listing is the root with an empty stack -/
example : (occ [] (.paren {} {} (.literal {} {} b!"1") {} false)).length = 2 := by decide

/-- Every visited stack is a genuine chain of ancestors: consecutive elements are parent and slot. -/
def Chain : List Expr → Expr → Prop
  | [], _ => True
  | p :: rest, x => (match rest with
      | [] => x ∈ slots p
      | q :: _ => q ∈ slots p) ∧ Chain rest x

theorem chain_snoc (stk : List Expr) (p x : Expr) (h : Chain stk p) (hx : x ∈ slots p) : Chain (stk ++ [p]) x := by
  induction stk with
  | nil => simp [Chain, hx]
  | cons q stk ih =>
    cases stk with
    | nil => simp [Chain] at h ⊢; exact ⟨h, hx⟩
    | cons r stk => simp only [Chain, List.cons_append] at h ⊢; exact ⟨h.1, ih h.2⟩

theorem occ_chain (v : Expr) : ∀ (stk : List Expr), Chain stk v → ∀ p ∈ occ stk v, Chain p.1 p.2 := by
  induction v using slot_induction with
  | h v ih =>
    intro stk hc p hp
    rw [occ_slots] at hp
    cases hv : v.isNil with
    | true => rw [hv] at hp; simp at hp
    | false =>
      rw [hv] at hp
      simp only [Bool.false_eq_true, if_false, List.mem_cons, List.mem_flatMap] at hp
      rcases hp with rfl | ⟨x, hx, hp⟩
      · exact hc
      · exact ih x hx _ (chain_snoc stk v x hc hx) p hp

/-- **C26**: the stack shown to the callback is the chain of ancestors, outermost first, of the visited node, and the
root is the outermost one. -/
theorem C26_stack_is_ancestors (v : Expr) : ∀ p ∈ occ [] v, Chain p.1 p.2 ∧ (p.1 ++ [p.2]).head? = some v := by
  intro p hp
  refine ⟨occ_chain v [] trivial p hp, ?_⟩
  have key : ∀ (v : Expr) (stk : List Expr), ∀ p ∈ occ stk v, ∃ t, p.1 ++ [p.2] = stk ++ v :: t := by
    intro v
    induction v using slot_induction with
    | h v ih =>
      intro stk p hp
      rw [occ_slots] at hp
      cases hv : v.isNil with
      | true => rw [hv] at hp; simp at hp
      | false =>
        rw [hv] at hp
        simp only [Bool.false_eq_true, if_false, List.mem_cons, List.mem_flatMap] at hp
        rcases hp with rfl | ⟨x, hx, hp⟩
        · exact ⟨[], rfl⟩
        · obtain ⟨t, ht⟩ := ih x hx _ p hp
          exact ⟨x :: t, by simpa using ht⟩
  obtain ⟨t, ht⟩ := key v [] p hp
  rw [ht]; rfl

/-! ### WalkInterruptable -/

/-- no ancestor (with its own stack) asked to stop -/
def notBelowStop (stop : Expr → List Expr → Bool) (stk : List Expr) : Bool :=
  (List.range stk.length).all fun i =>
    match stk[i]? with
    | none => true
    | some a => !stop a (stk.take i)

theorem notBelowStop_snoc (stop : Expr → List Expr → Bool) (stk : List Expr) (v : Expr) :
    notBelowStop stop (stk ++ [v]) = (notBelowStop stop stk && !stop v stk) := by
  unfold notBelowStop
  rw [List.length_append, List.length_singleton, List.range_succ, List.all_append]
  congr 1
  · rw [Bool.eq_iff_iff, List.all_eq_true, List.all_eq_true]
    constructor <;> intro h i hi <;> have := h i hi <;> rw [List.mem_range] at hi <;>
      rw [List.getElem?_append_left hi, List.take_append_of_le_length (by omega)] at * <;> exact this
  · simp

theorem below_stop (stop : Expr → List Expr → Bool) (v : Expr) :
    ∀ stk, notBelowStop stop stk = false → (occ stk v).filter (fun p => notBelowStop stop p.1) = [] := by
  induction v using slot_induction with
  | h v ih =>
    intro stk hs
    rw [occ_slots]
    cases v.isNil with
    | true => rfl
    | false =>
      simp only [Bool.false_eq_true, if_false, List.filter_cons, hs, List.filter_flatMap]
      rw [List.flatMap_eq_nil_iff]
      intro x hx
      exact ih x hx _ (by rw [notBelowStop_snoc, hs]; rfl)

theorem walkN_interrupt {σ} (g : σ → Expr → List Expr → σ) (stop : Expr → List Expr → Bool) (v : Expr) :
    ∀ n s stk, size v ≤ n → notBelowStop stop stk = true →
      walkN (fun s x stk => (g s x stk, stop x stk)) n s v stk
        = ((occ stk v).filter fun p => notBelowStop stop p.1).foldl (fun s p => g s p.2 p.1) s := by
  induction v using slot_induction with
  | h v ih =>
    intro n s stk hn hstk
    have hp := size_pos v
    obtain ⟨n, rfl⟩ : ∃ k, n = k + 1 := ⟨n - 1, by omega⟩
    rw [walkN_succ, occ_slots]
    cases v.isNil with
    | true => rfl
    | false =>
      simp only [Bool.false_eq_true, if_false, List.filter_cons, hstk, if_true, List.foldl_cons,
        List.filter_flatMap]
      cases hst : stop v stk with
      | true =>
        have : (List.flatMap (fun x => List.filter (fun p => notBelowStop stop p.1) (occ (stk ++ [v]) x)) (slots v)) = [] := by
          rw [List.flatMap_eq_nil_iff]
          intro x _
          exact below_stop stop x _ (by rw [notBelowStop_snoc, hstk, hst]; rfl)
        rw [this]; rfl
      | false =>
        simp only [Bool.false_eq_true, if_false]
        rw [foldl_flatMap']
        apply foldl_congr_mem
        intro s x hx
        have := size_slot_lt hx
        exact ih x hx n s _ (by omega) (by rw [notBelowStop_snoc, hstk, hst]; rfl)

/-- **C26**: `WalkInterruptable` visits exactly the nodes that have no ancestor at which the callback asked to stop, in
preorder. (`stop` is the decision; the rest of the callback may use any state.) -/
theorem C26_interruptable {σ : Type} (g : σ → Expr → List Expr → σ) (stop : Expr → List Expr → Bool) (s : σ)
    (v : Expr) :
    walkI (fun s x stk => (g s x stk, stop x stk)) s v
      = ((occ [] v).filter fun p => notBelowStop stop p.1).foldl (fun s p => g s p.2 p.1) s :=
  walkN_interrupt g stop v _ _ _ (Nat.le_refl _) rfl

/-! ### Edit -/

theorem foldl_zip_edit {σ} (f : σ → Expr → List Expr → σ × Expr × Bool) (n : Nat) (stk : List Expr)
    (l : List Expr) (w : List Bool) (hw : w.length = l.length)
    (h : ∀ x ∈ l, ∀ s, (editN f n s x stk).2.1 = x) (s : σ) (acc : List Expr) :
    ((l.zip w).foldl (fun (acc : σ × List Expr) xw =>
      ((editN f n acc.1 xw.1 stk).1,
        acc.2 ++ [if xw.2 && (editN f n acc.1 xw.1 stk).2.2 then xw.1 else (editN f n acc.1 xw.1 stk).2.1])) (s, acc)).2
      = acc ++ l := by
  induction l generalizing w s acc with
  | nil => simp
  | cons x l ih =>
    cases w with
    | nil => simp at hw
    | cons b w =>
      simp only [List.zip_cons_cons, List.foldl_cons]
      rw [ih w (by simpa using hw) (fun y hy => h y (by simp [hy]))]
      rw [h x (by simp)]
      simp

/-- every load statement in the tree has as many local names as original names (true of parsed trees) -/
def LoadsOk (v : Expr) : Prop := ∀ p ∈ occ [] v, lenOk p.2

theorem editN_id {σ} (f : σ → Expr → List Expr → σ × Expr × Bool)
    (hf : ∀ s v stk, (f s v stk).2.1 = v) (v : Expr) :
    ∀ n s stk stk', (∀ p ∈ occ stk' v, lenOk p.2) → (editN f n s v stk).2.1 = v := by
  induction v using slot_induction with
  | h v ih =>
    intro n s stk stk' hl
    cases n with
    | zero => rfl
    | succ n =>
      rw [editN]
      rw [occ_slots] at hl
      cases hv : v.isNil with
      | true => simp
      | false =>
        rw [hv] at hl
        simp only [Bool.false_eq_true, if_false]
        simp only [hf]
        rw [foldl_zip_edit f n (stk ++ [v]) (slots v) (weakSlots v) (weakSlots_length v)]
        · rw [List.nil_append]
          exact withSlots_slots v (hl (stk', v) (by simp))
        · intro x hx s
          refine ih x hx n s _ (stk' ++ [v]) ?_
          intro p hp
          refine hl p ?_
          simp only [Bool.false_eq_true, if_false, List.mem_cons, List.mem_flatMap]
          exact Or.inr ⟨x, hx, hp⟩

/-- **C26**: editing with a callback that always gives back the node it was shown (as the same pointer or as a
replacement) leaves the tree as it was. -/
theorem C26_edit_identity {σ : Type} (f : σ → Expr → List Expr → σ × Expr × Bool)
    (hf : ∀ s v stk, (f s v stk).2.1 = v) (n : Nat) (s : σ) (v : Expr) (stk : List Expr) (hl : LoadsOk v) :
    (editN f n s v stk).2.1 = v :=
  editN_id f hf v n s stk [] hl

/-- a callback that replaces every `keyValue` by a literal -/
def dropEntries : Unit → Expr → List Expr → Unit × Expr × Bool := fun _ v _ =>
  match v with
  | .keyValue .. => ((), .literal {} {} b!"0", true)
  | v => ((), v, false)

/-- **C26 (witness)**: `Edit` cannot replace a dict entry: the same callback that replaces a key-value node elsewhere
(here inside a list) leaves a dict unchanged. -/
theorem C26_weak_slot_witness :
    let kv : Expr := .keyValue {} (.literal {} {} b!"1") {} (.literal {} {} b!"2")
    slots (editN dropEntries 10 () (.list {} {} [kv] {} false) []).2.1 = [.literal {} {} b!"0"] ∧
    slots (editN dropEntries 10 () (.dict {} {} [kv] {} false) []).2.1 = [kv] := by
  exact ⟨rfl, rfl⟩

/-- The hypothesis of `C26_edit_identity` on a concrete tree. -/
example : LoadsOk (.file {} [.load {} {} { value := b!"//a:b.bzl" } [{ name := b!"x" }] [{ name := b!"y" }] {} true]) := by
  intro p hp
  simp [occ, occL] at hp
  rcases hp with rfl | rfl | rfl | rfl | rfl <;> simp [lenOk]

end Verif.Props.Walk
