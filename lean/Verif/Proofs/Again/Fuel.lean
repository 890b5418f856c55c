import Verif.Proofs.PrRel
/-
The printer's recursion budget makes no difference once it exceeds the size of the tree.
-/
namespace Verif.Again
open Verif Verif.Syntax Verif.Print Verif.Walk

/-- `pr` and `pr'` agree on trees of size at most `n - 2` -/
def Agree (n : Nat) (pr pr' : Pr) : Prop := ∀ e o st, size e + 2 ≤ n → pr e o st = pr' e o st

section
variable {ft : FileType} {pr pr' : Pr} {n : Nat} (A : Agree n pr pr')
include A

theorem a_stmtLoop : ∀ (l : List Expr) (st : St), sizeL l + 2 ≤ n → stmtLoop ft pr l st = stmtLoop ft pr' l st := by
  intro l
  induction l with
  | nil => intro st _; rfl
  | cons s l ih =>
    intro st hs
    unfold sizeL at hs
    unfold stmtLoop
    dsimp only
    rw [A s 0 st (by omega)]
    cases l with
    | nil => rfl
    | cons s2 l => exact ih _ (by omega)

theorem a_statements (l : List Expr) (st : St) (hs : sizeL l + 2 ≤ n) : statements ft pr l st = statements ft pr' l st :=
  a_stmtLoop A _ st (Nat.le_trans (Nat.add_le_add_right (Printed.filter_size l) 2) hs)

theorem a_nested (l : List Expr) (st : St) (hs : sizeL l + 2 ≤ n) : nestedStatements ft pr l st = nestedStatements ft pr' l st := by
  unfold nestedStatements
  dsimp only
  rw [a_statements A l _ hs]

theorem a_compact : ∀ (l : List Expr) (b : Bool) (st : St), (∀ x ∈ l, size x + 2 ≤ n) → compactElems pr b l st = compactElems pr' b l st := by
  intro l
  induction l with
  | nil => intro b st _; rfl
  | cons x l ih =>
    intro b st hs
    unfold compactElems
    rw [A x 0 _ (hs x List.mem_cons_self)]
    exact ih _ _ (fun y hy => hs y (List.mem_cons_of_mem _ hy))

theorem a_multi (m : Mode) : ∀ (l : List Expr) (b : Bool) (st : St), (∀ x ∈ l, size x + 2 ≤ n) → multiElems pr m b l st = multiElems pr' m b l st := by
  intro l
  induction l with
  | nil => intro b st _; rfl
  | cons x l ih =>
    intro b st hs
    unfold multiElems
    dsimp only
    rw [A x 0 _ (hs x List.mem_cons_self)]
    exact ih _ _ (fun y hy => hs y (List.mem_cons_of_mem _ hy))

theorem a_seq (o c : Bytes) (start : Pos) (l : List Expr) (e : Option EndN) (m : Mode) (fc fm : Bool) (st : St) (hs : ∀ x ∈ l, size x + 2 ≤ n) :
    seq ft pr o c start l e m fc fm st = seq ft pr' o c start l e m fc fm st := by
  have hs' : ∀ x ∈ l.filter (fun x => !x.isNil), size x + 2 ≤ n := fun x hx => hs x (List.mem_filter.1 hx).1
  unfold seq
  dsimp only
  rw [a_compact A _ true _ hs', a_multi A m _ true _ hs']

theorem a_clauses (m : Bool) : ∀ (l : List Expr) (st : St), sizeL l + 2 ≤ n → clauseElems pr m l st = clauseElems pr' m l st := by
  intro l
  induction l with
  | nil => intro st _; rfl
  | cons x l ih =>
    intro st hs
    unfold sizeL at hs
    unfold clauseElems
    rw [A x 0 _ (by omega)]
    exact ih _ (by omega)

theorem a_lambda : ∀ (l : List Expr) (b : Bool) (st : St), sizeL l + 2 ≤ n → lambdaParams pr b l st = lambdaParams pr' b l st := by
  intro l
  induction l with
  | nil => intro b st _; rfl
  | cons x l ih =>
    intro b st hs
    unfold sizeL at hs
    unfold lambdaParams
    dsimp only
    rw [A x 0 _ (by omega)]
    exact ih _ _ (by omega)

theorem a_if : ∀ (f g : Nat) (b ne : Bool) (co : Expr) (tr : List Expr) (ep : EndN) (fa : List Expr) (st : St), size co + sizeL tr + sizeL fa + 2 ≤ n →
    size co + sizeL tr + sizeL fa ≤ f → size co + sizeL tr + sizeL fa ≤ g → ifChain ft pr f b ne co tr ep fa st = ifChain ft pr' g b ne co tr ep fa st := by
  intro f
  induction f with
  | zero => intro g b ne co tr ep fa st _ h; have := Printed.size_pos co; omega
  | succ f ih =>
    intro g b ne co tr ep fa st hs hf hg
    have := Printed.size_pos co
    cases g with
    | zero => omega
    | succ g =>
      unfold ifChain
      dsimp only
      rw [A co 0 _ (by omega), a_nested A tr _ (by omega)]
      have key : ∀ st, nestedStatements ft pr fa st = nestedStatements ft pr' fa st := fun st => a_nested A fa st (by omega)
      split
      · rename_i c2 p2 co2 tr2 ep2 fa2
        simp only [sizeL, size] at hs hf hg
        rw [ih g _ _ co2 tr2 ep2 fa2 _ (by omega) (by omega) (by omega), key]
      · rw [key]

omit A in
theorem a_load : ∀ (fs ts : List IdentN), ∀ x ∈ loadArgs fs ts, size x ≤ 3 ∧ 1 ≤ fs.length ∧ 1 ≤ ts.length := by
  intro fs
  induction fs with
  | nil => intro ts x hx; cases ts <;> cases hx
  | cons f fs ih =>
    intro ts x hx
    cases ts with
    | nil => cases hx
    | cons t ts =>
      unfold loadArgs at hx
      rcases List.mem_cons.1 hx with rfl | hx
      · refine ⟨?_, by simp, by simp⟩
        split <;> simp [size]
      · exact ⟨(ih ts x hx).1, by simp, by simp⟩

omit A in
theorem withParen_congr {prec outer : Nat} {b b' : St → St} (h : ∀ st, b st = b' st) (st : St) : withParen prec outer b st = withParen prec outer b' st := by
  rw [show b = b' from funext h]

theorem a_body {f g : Nat} {e : Expr} {o : Nat} {st : St} (hs : size e + 1 ≤ n) (hf : size e ≤ f + 1) (hg : size e ≤ g + 1) : exprBody ft pr f e o st = exprBody ft pr' g e o st := by
  have mem : ∀ {l : List Expr}, sizeL l + 2 ≤ n → ∀ x ∈ l, size x + 2 ≤ n := fun h x hx => by have := Printed.mem_size hx; omega
  cases e
  case nil | file | commentBlock | literal | ident | branch => rfl
  case string s =>
    unfold exprBody; rfl
  case typedIdent c i t =>
    simp only [size] at hs
    have := Printed.size_pos t
    unfold exprBody
    dsimp only
    rw [A (.ident i) 0 _ (by simp only [size]; omega), A t 0 _ (by omega)]
  case dot c x p np name =>
    simp only [size] at hs
    unfold exprBody
    dsimp only
    exact withParen_congr (fun st => by rw [A x _ _ (by omega)]) st
  case index c x p y q =>
    simp only [size] at hs
    unfold exprBody
    dsimp only
    exact withParen_congr (fun st => by rw [A x _ _ (by omega), A y _ _ (by omega)]) st
  case keyValue c k p v =>
    simp only [size] at hs
    unfold exprBody
    dsimp only
    rw [A k _ _ (by omega), A v _ _ (by omega)]
  case slice c x p fr c1 to c2 step q =>
    simp only [size] at hs
    unfold exprBody
    dsimp only
    exact withParen_congr (fun st => by
      rw [A x _ _ (by omega)]
      simp only [A fr _ _ (show size fr + 2 ≤ n by omega), A to _ _ (show size to + 2 ≤ n by omega), A step _ _ (show size step + 2 ≤ n by omega)]) st
  case unary c p op x =>
    simp only [size] at hs
    unfold exprBody
    dsimp only
    exact withParen_congr (fun st => by rw [A x _ _ (by omega)]) st
  case lambda c p ps b =>
    simp only [size] at hs
    unfold exprBody
    dsimp only
    refine withParen_congr (fun st => ?_) st
    rw [a_lambda A ps true _ (by omega)]
    cases b with
    | nil => rfl
    | cons x b =>
      simp only [sizeL] at hs
      exact A x _ _ (by omega)
  case binary c x p op lb y =>
    simp only [size] at hs
    unfold exprBody
    dsimp only
    exact withParen_congr (fun st => by rw [A x _ _ (by omega), A y _ _ (by omega)]) st
  case assign c x p op lb y =>
    simp only [size] at hs
    unfold exprBody
    dsimp only
    exact withParen_congr (fun st => by rw [A x _ _ (by omega), A y _ _ (by omega)]) st
  case paren c s x e fm =>
    simp only [size] at hs
    unfold exprBody
    dsimp only
    exact a_seq A _ _ _ [x] _ _ _ _ _ (fun y hy => by rw [List.mem_singleton.1 hy]; omega)
  case call c x ls l e fc fm =>
    simp only [size] at hs
    have := Printed.size_pos x
    unfold exprBody
    dsimp only
    exact withParen_congr (fun st => by rw [A x _ _ (by omega)]; exact a_seq A _ _ _ _ _ _ _ _ _ (mem (by omega))) st
  case load c p m fs ts r fc =>
    simp only [size] at hs
    unfold exprBody
    dsimp only
    refine withParen_congr (fun st => a_seq A _ _ _ _ _ _ _ _ _ (fun y hy => ?_)) st
    rcases List.mem_cons.1 hy with rfl | hy
    · simp only [size]; omega
    · have := a_load fs ts y hy; omega
  case list c s l e fm =>
    simp only [size] at hs
    unfold exprBody
    dsimp only
    exact a_seq A _ _ _ l _ _ _ _ _ (mem (by omega))
  case set c s l e fm =>
    simp only [size] at hs
    unfold exprBody
    dsimp only
    exact a_seq A _ _ _ l _ _ _ _ _ (mem (by omega))
  case tuple c nb s l e fc fm =>
    simp only [size] at hs
    unfold exprBody
    dsimp only
    exact a_seq A _ _ _ l _ _ _ _ _ (mem (by omega))
  case dict c s l e fm =>
    simp only [size] at hs
    unfold exprBody
    dsimp only
    exact a_seq A _ _ _ l _ _ _ _ _ (mem (by omega))
  case compr c cu p b cl fm e =>
    simp only [size] at hs
    have := Printed.size_pos b
    show listFor pr cu b cl fm e st = listFor pr' cu b cl fm e st
    unfold listFor
    dsimp only
    rw [A b _ _ (by omega), a_clauses A _ cl _ (by omega)]
  case cond c t i te el e =>
    simp only [size] at hs
    unfold exprBody
    dsimp only
    exact withParen_congr (fun st => by rw [A t _ _ (by omega), A te _ _ (by omega), A e _ _ (by omega)]) st
  case returnS c p x =>
    simp only [size] at hs
    unfold exprBody
    dsimp only
    rw [A x _ _ (by omega)]
  case defS c sp name ps body cp fc fm t =>
    simp only [size] at hs
    have := Printed.size_pos t
    unfold exprBody
    dsimp only
    rw [a_seq A _ _ _ ps _ _ _ _ _ (mem (by omega)), A t _ _ (by omega), a_nested A body _ (by omega)]
  case forS c p vs x body =>
    simp only [size] at hs
    have := Printed.size_pos x
    unfold exprBody
    dsimp only
    rw [A vs _ _ (by omega), A x _ _ (by omega), a_nested A body _ (by omega)]
  case ifS c p co t ep fa =>
    simp only [size] at hs hf hg
    exact a_if A f g _ _ co t ep fa st (by omega) (by omega) (by omega)
  case forClause c p vs i x =>
    simp only [size] at hs
    unfold exprBody
    dsimp only
    rw [A vs _ _ (by omega), A x _ _ (by omega)]
  case ifClause c p x =>
    simp only [size] at hs
    unfold exprBody
    dsimp only
    rw [A x _ _ (by omega)]

end

/-- enough is enough -/
theorem fuel_agree (ft : FileType) : ∀ (n f g : Nat), n ≤ f → n ≤ g → Agree n (expr ft f) (expr ft g) := by
  intro n
  induction n with
  | zero => intro f g _ _ e o st h; omega
  | succ n ih =>
    intro f g hf hg e o st hs
    cases f with
    | zero => omega
    | succ f =>
      cases g with
      | zero => omega
      | succ g =>
        unfold expr
        dsimp only
        rw [a_body (ft := ft) (f := f) (g := g) (e := e) (ih f g (by omega) (by omega)) (by omega) (by omega) (by omega)]

end Verif.Again
