import Verif.Proofs.Again.Gen
/-
Derivations of expressions from tokens with lines.
-/
namespace Verif.Again
open Verif Verif.Syntax Verif.Lexer Verif.Print Verif.Grammar Verif.Parser Verif.Round

/-! ## Lists of tokens -/

def comma : LTok := W 0 44 b!","

def joinC : List (List LTok) → List LTok
  | [] => []
  | [a] => a
  | a :: b :: l => a ++ comma :: joinC (b :: l)

theorem joinC_cons (a : List LTok) (l : List (List LTok)) : joinC (a :: l) = a ++ l.flatMap (comma :: ·) := by
  induction l generalizing a with
  | nil => simp [joinC]
  | cons b l ih => rw [joinC, ih]; simp

/-- a trailing comma -/
def tcomma (tc : Bool) : List LTok := if tc then [comma] else []

/-- how a list with commas is derived from its elements -/
structure Lst {α : Type} (elem : α → List LTok → Prop) (lst : List α → List LTok → Prop) : Prop where
  one : ∀ x as, elem x as → lst [x] as
  snoc : ∀ l as x a, l ≠ [] → lst l as → elem x a → lst (l ++ [x]) (as ++ (comma :: a))

theorem Lst.join {α : Type} {elem : α → List LTok → Prop} {lst : List α → List LTok → Prop} (L : Lst elem lst) {l : List α} {ass : List (List LTok)}
    (h : All2 elem l ass) (hl : l ≠ []) : lst l (joinC ass) := by
  cases h with
  | nil => exact absurd rfl hl
  | cons x a l ass hx h =>
    rw [joinC_cons]
    have key : ∀ (l : List α) (ass : List (List LTok)) (done : List α) (acc : List LTok), All2 elem l ass → done ≠ [] → lst done acc →
        lst (done ++ l) (acc ++ ass.flatMap (comma :: ·)) := by
      intro l ass done acc h
      induction h generalizing done acc with
      | nil => intro _ hd; simpa using hd
      | cons x a l ass hx _ ih =>
        intro hn hd
        have := ih (done ++ [x]) (acc ++ comma :: a) (by simp) (L.snoc _ _ _ _ hn hd hx)
        simpa using this
    exact key l ass [x] a h (by simp) (L.one _ _ hx)

/-- the tokens between the brackets of a sequence -/
def SeqA {α : Type} (elem : α → List LTok → Prop) (m : Mode) (l : List α) (as : List LTok) : Prop :=
  ∃ ass tc, All2 elem l ass ∧ as = joinC ass ++ tcomma tc ∧ (l = [] → tc = false) ∧ (m = .paren ∨ m = .def_ → tc = false) ∧
    (m = .tuple → l.length = 1 → tc = true)

theorem All2.snoc {α β : Type} {r : α → β → Prop} {l : List α} {l' : List β} {x : α} {y : β} (h : All2 r l l') (hx : r x y) : All2 r (l ++ [x]) (l' ++ [y]) := by
  induction h with
  | nil => exact .cons _ _ _ _ hx .nil
  | cons a b l l' h1 _ ih => exact .cons _ _ _ _ h1 ih

theorem All2.append {α β : Type} {r : α → β → Prop} {l m : List α} {l' m' : List β} (h : All2 r l l') (hm : All2 r m m') : All2 r (l ++ m) (l' ++ m') := by
  induction h with
  | nil => exact hm
  | cons a b l l' h1 _ ih => exact .cons _ _ _ _ h1 ih

theorem All2.one {α β : Type} {r : α → β → Prop} {x : α} {l' : List β} (h : All2 r [x] l') : ∃ y, l' = [y] ∧ r x y := by
  cases h with
  | cons _ y _ l' h1 h2 => cases h2; exact ⟨y, rfl, h1⟩

/-! ## Small classes -/

/-- a property of the expression of a value -/
abbrev OE (R : Expr → Prop) (v : Val) : Prop := R v.expr
/-- the list of a value, element by element -/
abbrev OL {α : Type} (ρ : α → Expr → Prop) (l : List α) (v : Val) : Prop := All2 ρ l v.exprs

theorem gtok (ln : Nat) (k : Kind) (t : Bytes) : Gen [W ln k t] (.t k) (TV (W ln k t)) := Gen.tok (W ln k t)

theorem TV.at {ln : Nat} {k : Kind} {t : Bytes} {v : Val} (h : TV (W ln k t) v) (hk : loose k = false) : v.pos.line = ln := by
  have := h.ln
  change mark k v.pos.line = mark k ln at this
  unfold mark at this
  rwa [hk] at this

/-- an identifier node at a line -/
structure IdAt (ln : Nat) (n : Bytes) (n' : IdentN) : Prop where
  name : n'.name = n
  comm : n'.comments = {}
  pos : n'.namePos.line = ln

/-- a string node at a line -/
structure StrAt (ln : Nat) (t v : Bytes) (tr : Bool) (n' : StringN) : Prop where
  tok : n'.token = t
  value : n'.value = v
  triple : n'.triple = tr
  comm : n'.comments = {}
  pos : n'.start.line = ln
  stop : n'.endPos = n'.start.add t

theorem g_ident (ln : Nat) (n : Bytes) : Gen [W ln K.ident n] (.n .ident) (fun v => ∃ n', v.expr = .ident n' ∧ IdAt ln n n') :=
  Gen.prod1 Fm.ident_139 (by decide) (gtok ln K.ident n) (fun v h => ⟨_, rfl, _, rfl, h.tok, rfl, h.at (by decide)⟩)

theorem g_string (ln : Nat) (t v : Bytes) (tr : Bool) : Gen [WS ln t v tr] (.n .string) (fun val => ∃ n', val.expr = .string n' ∧ StrAt ln t v tr n') :=
  Gen.prod1 Fm.string_138 (by decide) (Gen.tok (WS ln t v tr)) (fun v h => ⟨_, rfl, _, rfl, h.tok, h.str, h.triple, rfl, h.ln, by
    show v.pos.add v.tok = v.pos.add _
    rw [h.tok]; rfl⟩)

theorem g_commaOpt (tc : Bool) : Gen (tcomma tc) (.n .commaOpt) (fun _ => True) := by
  cases tc
  · exact Gen.prod0 Fm.commaOpt_124 (by decide) ⟨_, rfl, trivial⟩
  · exact Gen.prod1 Fm.commaOpt_125 (by decide) (gtok 0 44 b!",") (fun v _ => ⟨v, rfl, trivial⟩)

theorem g_commas : Gen [comma] (.n .commas) (fun v => v.pos.line ≠ 0) :=
  Gen.prod1 Fm.commas_126 (by decide) (gtok 0 44 b!",") (fun v h => ⟨v, rfl, h.line⟩)

theorem g_commasOpt (tc : Bool) : Gen (tcomma tc) (.n .commasOpt) (fun v => v.pos.line ≠ 0 ↔ tc = true) := by
  cases tc
  · exact Gen.prod0 Fm.commasOpt_128 (by decide) ⟨_, rfl, by simp⟩
  · exact Gen.prod1 Fm.commasOpt_129 (by decide) g_commas (fun v h => ⟨v, rfl, by simp [h]⟩)

/-! ## Lists -/

section
variable {α : Type} {ρ : α → Expr → Prop}

theorem l_tests : Lst (fun x as => Gen as (.n (.any 2)) (OE (ρ x))) (fun l as => Gen as (.n .tests) (OL ρ l)) where
  one := fun x as h => Gen.prod1 Fm.tests_118 (by decide) h (fun v h => ⟨_, rfl, .cons _ _ _ _ h .nil⟩)
  snoc := fun l as x a _ hl hx => (Gen.prod3 Fm.tests_119 (by decide) hl g_commas hx (R := OL ρ (l ++ [x])) (fun v1 v2 v3 h1 _ h3 => ⟨_, rfl, All2.snoc h1 h3⟩)).cast (by simp)

theorem l_args : Lst (fun x as => Gen as (.n .argument) (OE (ρ x))) (fun l as => Gen as (.n .arguments) (OL ρ l)) where
  one := fun x as h => (Gen.prod2 Fm.arguments_57 (by decide) (g_commasOpt false) h (R := OL ρ [x]) (fun _ v _ h => ⟨_, rfl, .cons _ _ _ _ h .nil⟩)).cast (by simp [tcomma])
  snoc := fun l as x a _ hl hx => (Gen.prod3 Fm.arguments_58 (by decide) hl g_commas hx (R := OL ρ (l ++ [x])) (fun v1 v2 v3 h1 _ h3 => ⟨_, rfl, All2.snoc h1 h3⟩)).cast (by simp)

theorem l_kvs : Lst (fun x as => Gen as (.n .keyvalue) (OE (ρ x))) (fun l as => Gen as (.n .keyvaluesNoComma) (OL ρ l)) where
  one := fun x as h => Gen.prod1 Fm.keyvaluesNoComma_131 (by decide) h (fun v h => ⟨_, rfl, .cons _ _ _ _ h .nil⟩)
  snoc := fun l as x a _ hl hx => (Gen.prod3 Fm.keyvaluesNoComma_132 (by decide) hl g_commas hx (R := OL ρ (l ++ [x])) (fun v1 v2 v3 h1 _ h3 => ⟨_, rfl, All2.snoc h1 h3⟩)).cast (by simp)

theorem l_params : Lst (fun x as => Gen as (.n .parameter) (OE (ρ x))) (fun l as => Gen as (.n .parameters) (OL ρ l)) where
  one := fun x as h => Gen.prod1 Fm.parameters_71 (by decide) h (fun v h => ⟨_, rfl, .cons _ _ _ _ h .nil⟩)
  snoc := fun l as x a _ hl hx => (Gen.prod3 Fm.parameters_72 (by decide) hl (gtok 0 44 b!",") hx (R := OL ρ (l ++ [x])) (fun v1 v2 v3 h1 _ h3 => ⟨_, rfl, All2.snoc h1 h3⟩)).cast (by simp [comma])

theorem l_paramsT : Lst (fun x as => Gen as (.n .parameterType) (OE (ρ x))) (fun l as => Gen as (.n .parametersType) (OL ρ l)) where
  one := fun x as h => Gen.prod1 Fm.parametersType_73 (by decide) h (fun v h => ⟨_, rfl, .cons _ _ _ _ h .nil⟩)
  snoc := fun l as x a _ hl hx => (Gen.prod3 Fm.parametersType_74 (by decide) hl (gtok 0 44 b!",") hx (R := OL ρ (l ++ [x])) (fun v1 v2 v3 h1 _ h3 => ⟨_, rfl, All2.snoc h1 h3⟩)).cast (by simp [comma])

/-- elements between brackets, with a trailing comma -/
theorem g_testsOpt {m : Mode} {l : List α} {as} (h : SeqA (fun x as => Gen as (.n (.any 2)) (OE (ρ x))) m l as) :
    Gen as (.n .testsOpt) (fun v => OL ρ l v ∧ (v.comma.line = 0 → l.length = 1 → m ≠ .tuple) ∧ (v.comma.line ≠ 0 → m ≠ .paren)) := by
  obtain ⟨ass, tc, h1, rfl, h2, h3, h4⟩ := h
  by_cases hl : l = []
  · subst hl
    cases h1
    rw [h2 rfl]
    exact Gen.prod0 Fm.testsOpt_122 (by decide) ⟨_, rfl, .nil, fun _ h => by simp at h, fun h => absurd rfl h⟩
  · refine Gen.prod2 Fm.testsOpt_123 (by decide) (l_tests.join h1 hl) (g_commasOpt tc) (fun v1 v2 q1 q2 => ⟨_, rfl, q1, ?_, ?_⟩)
    · intro hc hlen hm
      exact (q2.2 (h4 hm hlen)) hc
    · intro hc hm
      have := q2.1 hc
      rw [h3 (.inl hm)] at this
      cases this

/-! ## Primary expressions -/

variable {R : Expr → Prop} {a z : Nat}

theorem g_list {l : List α} {as} (h : SeqA (fun x as => Gen as (.n (.any 2)) (OE (ρ x))) .list l as)
    (hR : ∀ (p e : Pos) (l' : List Expr), p.line = a → e.line = z → All2 ρ l l' → R (.list {} p l' ⟨{}, e⟩ (forceMultiLine p l' e))) :
    Gen (W a 91 b!"[" :: (as ++ [W z 93 b!"]"])) (.n .primary) (OE R) :=
  Gen.prod3 Fm.primary_49 (by decide) (gtok a 91 b!"[") (g_testsOpt h) (gtok z 93 b!"]") (fun _ _ _ q1 q q3 =>
    ⟨_, rfl, hR _ _ _ (q1.at (by decide)) (q3.at (by decide)) q.1⟩)

theorem g_set {l : List α} {as m} (hl : l ≠ []) (h : SeqA (fun x as => Gen as (.n (.any 2)) (OE (ρ x))) m l as)
    (hR : ∀ (p e : Pos) (l' : List Expr), p.line = a → e.line = z → All2 ρ l l' → R (.set {} p l' ⟨{}, e⟩ (forceMultiLine p l' e))) :
    Gen (W a 123 b!"{" :: (as ++ [W z 125 b!"}"])) (.n .primary) (OE R) := by
  obtain ⟨ass, tc, h1, rfl, _⟩ := h
  exact (Gen.prod4 Fm.primary_53 (by decide) (gtok a 123 b!"{") (l_tests.join h1 hl) (g_commaOpt tc) (gtok z 125 b!"}") (R := OE R)
    (fun _ _ _ _ q1 q _ q4 => ⟨_, rfl, hR _ _ _ (q1.at (by decide)) (q4.at (by decide)) q⟩)).cast (by simp)

theorem g_dict {l : List α} {as m} (h : SeqA (fun x as => Gen as (.n .keyvalue) (OE (ρ x))) m l as)
    (hR : ∀ (p e : Pos) (l' : List Expr), p.line = a → e.line = z → All2 ρ l l' → R (.dict {} p l' ⟨{}, e⟩ (forceMultiLine p l' e))) :
    Gen (W a 123 b!"{" :: (as ++ [W z 125 b!"}"])) (.n .primary) (OE R) := by
  obtain ⟨ass, tc, h1, rfl, h2, _⟩ := h
  have : Gen (joinC ass ++ tcomma tc) (.n .keyvalues) (OL ρ l) := by
    by_cases hl : l = []
    · subst hl
      cases h1
      rw [h2 rfl]
      exact Gen.prod0 Fm.keyvalues_133 (by decide) ⟨_, rfl, .nil⟩
    · cases tc
      · exact (Gen.prod1 Fm.keyvalues_134 (by decide) (l_kvs.join h1 hl) (R := OL ρ l) (fun v q => ⟨v, rfl, q⟩)).cast (by simp [tcomma])
      · exact Gen.prod2 Fm.keyvalues_135 (by decide) (l_kvs.join h1 hl) g_commas (fun v _ q _ => ⟨v, rfl, q⟩)
  exact Gen.prod3 Fm.primary_52 (by decide) (gtok a 123 b!"{") this (gtok z 125 b!"}") (fun _ _ _ q1 q q3 =>
    ⟨_, rfl, hR _ _ _ (q1.at (by decide)) (q3.at (by decide)) q⟩)

theorem sem54_tuple {v1 v2 v3 : Val} (h : v2.exprs.length = 1 → v2.comma.line ≠ 0) :
    ∃ v, sem 54 [v1, v2, v3] = some v ∧ v.expr = .tuple {} false v1.pos v2.exprs ⟨{}, v3.pos⟩ (forceCompact v1.pos v2.exprs v3.pos) (forceMultiLine v1.pos v2.exprs v3.pos) := by
  have e : sem 54 [v1, v2, v3] = (match v2.exprs with
    | [x] =>
      if v2.comma.line = 0 then some { v1 with expr := .paren {} v1.pos x ⟨{}, v3.pos⟩ (forceMultiLine v1.pos [x] v3.pos) }
      else some { v1 with expr := .tuple {} false v1.pos [x] ⟨{}, v3.pos⟩ (forceCompact v1.pos [x] v3.pos) (forceMultiLine v1.pos [x] v3.pos) }
    | l => some { v1 with expr := .tuple {} false v1.pos l ⟨{}, v3.pos⟩ (forceCompact v1.pos l v3.pos) (forceMultiLine v1.pos l v3.pos) }) := rfl
  rw [e]
  match hx : v2.exprs with
  | [] => exact ⟨_, rfl, rfl⟩
  | [x] =>
    dsimp only
    rw [if_neg (h (by rw [hx]; rfl))]
    exact ⟨_, rfl, rfl⟩
  | x :: y :: l => exact ⟨_, rfl, rfl⟩

theorem g_tuple {l : List α} {as} (h : SeqA (fun x as => Gen as (.n (.any 2)) (OE (ρ x))) .tuple l as)
    (hR : ∀ (p e : Pos) (l' : List Expr), p.line = a → e.line = z → All2 ρ l l' → R (.tuple {} false p l' ⟨{}, e⟩ (forceCompact p l' e) (forceMultiLine p l' e))) :
    Gen (W a 40 b!"(" :: (as ++ [W z 41 b!")"])) (.n .primary) (OE R) := by
  refine Gen.prod3 Fm.primary_54 (by decide) (gtok a 40 b!"(") (g_testsOpt h) (gtok z 41 b!")") (fun v1 v2 v3 q1 q q3 => ?_)
  obtain ⟨v, e1, e2⟩ := sem54_tuple (v1 := v1) (v2 := v2) (v3 := v3) (fun hl hc => by
    refine q.2.1 hc ?_ rfl
    rw [q.1.length]; exact hl)
  exact ⟨v, e1, by show R v.expr; rw [e2]; exact hR _ _ _ (q1.at (by decide)) (q3.at (by decide)) q.1⟩

theorem sem54_paren {v1 v2 v3 : Val} {x : Expr} (h : v2.exprs = [x]) (hc : v2.comma.line = 0) :
    ∃ v, sem 54 [v1, v2, v3] = some v ∧ v.expr = .paren {} v1.pos x ⟨{}, v3.pos⟩ (forceMultiLine v1.pos [x] v3.pos) := by
  have e : sem 54 [v1, v2, v3] = (match v2.exprs with
    | [x] =>
      if v2.comma.line = 0 then some { v1 with expr := .paren {} v1.pos x ⟨{}, v3.pos⟩ (forceMultiLine v1.pos [x] v3.pos) }
      else some { v1 with expr := .tuple {} false v1.pos [x] ⟨{}, v3.pos⟩ (forceCompact v1.pos [x] v3.pos) (forceMultiLine v1.pos [x] v3.pos) }
    | l => some { v1 with expr := .tuple {} false v1.pos l ⟨{}, v3.pos⟩ (forceCompact v1.pos l v3.pos) (forceMultiLine v1.pos l v3.pos) }) := rfl
  rw [e, h]
  dsimp only
  rw [if_pos hc]
  exact ⟨_, rfl, rfl⟩

theorem g_paren {x : α} {as} (h : SeqA (fun x as => Gen as (.n (.any 2)) (OE (ρ x))) .paren [x] as)
    (hR : ∀ (p e : Pos) (x' : Expr), p.line = a → e.line = z → ρ x x' → R (.paren {} p x' ⟨{}, e⟩ (forceMultiLine p [x'] e))) :
    Gen (W a 40 b!"(" :: (as ++ [W z 41 b!")"])) (.n .primary) (OE R) := by
  refine Gen.prod3 Fm.primary_54 (by decide) (gtok a 40 b!"(") (g_testsOpt h) (gtok z 41 b!")") (fun v1 v2 v3 q1 q q3 => ?_)
  obtain ⟨x', e, hs⟩ := All2.one q.1
  have hc : v2.comma.line = 0 := by
    by_cases hc : v2.comma.line = 0
    · exact hc
    · exact absurd rfl (q.2.2 hc)
  obtain ⟨v, e1, e2⟩ := sem54_paren (v1 := v1) (v3 := v3) e hc
  exact ⟨v, e1, by show R v.expr; rw [e2]; exact hR _ _ _ (q1.at (by decide)) (q3.at (by decide)) hs⟩

end

section
variable {R R1 R2 R3 R4 : Expr → Prop} {ln a z : Nat}

/-- an expression in parentheses -/
theorem g_added {as} (h : Gen as (.n (.any 2)) (OE R1))
    (hR : ∀ (p e : Pos) (x' : Expr), p.line = a → e.line = z → R1 x' → R (.paren {} p x' ⟨{}, e⟩ (forceMultiLine p [x'] e))) :
    Gen (W a 40 b!"(" :: (as ++ [W z 41 b!")"])) (.n .primary) (OE R) := by
  refine g_paren (ρ := fun (_ : Unit) => R1) (x := ()) ⟨[as], false, .cons _ _ _ _ h .nil, by simp [joinC, tcomma], fun _ => rfl, fun _ => rfl, fun h => by cases h⟩ hR

theorem g_name {n : Bytes} (hR : ∀ n', IdAt ln n n' → R (.ident n')) : Gen [W ln K.ident n] (.n .primary) (OE R) :=
  Gen.prod1 Fm.primary_40 (by decide) (g_ident ln n) (fun v ⟨n', e, h⟩ => ⟨v, rfl, by show R v.expr; rw [e]; exact hR _ h⟩)

theorem g_str {t v : Bytes} {tr : Bool} (hR : ∀ n', StrAt ln t v tr n' → R (.string n')) : Gen [WS ln t v tr] (.n .primary) (OE R) :=
  Gen.prod1 Fm.primary_42 (by decide) (g_string ln t v tr) (fun v ⟨n', e, h⟩ => ⟨v, rfl, by show R v.expr; rw [e]; exact hR _ h⟩)

theorem g_int {t : Bytes} (hR : ∀ p : Pos, p.line = ln → R (.literal {} p t)) : Gen [W ln K.int t] (.n .primaryInt) (OE R) :=
  Gen.prod1 Fm.primaryInt_41 (by decide) (Gen.prod1 Fm.numberInt_143 (by decide) (gtok ln K.int t) (R := OE R)
    (fun v h => ⟨_, rfl, by
      show R (.literal {} v.pos v.tok)
      rw [h.tok]; exact hR _ (h.at (by decide))⟩)) (fun v h => ⟨v, rfl, h⟩)

theorem g_float2 {x y : Bytes} {l1 l2 : Nat} (hR : ∀ p : Pos, p.line = ln → R (.literal {} p (x ++ b!"." ++ y))) : Gen [W ln K.int x, W l1 46 b!".", W l2 K.int y] (.n .primary) (OE R) :=
  Gen.prod1 Fm.primary_41 (by decide) (Gen.prod3 Fm.number_140 (by decide) (gtok ln K.int x) (gtok l1 46 b!".") (gtok l2 K.int y) (R := OE R)
    (fun v1 v2 v3 h1 h2 h3 => ⟨_, rfl, by
      show R (.literal {} v1.pos (v1.tok ++ b!"." ++ v3.tok))
      rw [h1.tok, h3.tok]; exact hR _ (h1.at (by decide))⟩)) (fun v h => ⟨v, rfl, h⟩)

theorem g_float1 {x : Bytes} {l1 : Nat} (hR : ∀ p : Pos, p.line = ln → R (.literal {} p (x ++ b!"."))) : Gen [W ln K.int x, W l1 46 b!"."] (.n .primary) (OE R) :=
  Gen.prod1 Fm.primary_41 (by decide) (Gen.prod2 Fm.number_141 (by decide) (gtok ln K.int x) (gtok l1 46 b!".") (R := OE R)
    (fun v1 v2 h1 h2 => ⟨_, rfl, by
      show R (.literal {} v1.pos (v1.tok ++ b!"."))
      rw [h1.tok]; exact hR _ (h1.at (by decide))⟩)) (fun v h => ⟨v, rfl, h⟩)

theorem g_float0 {y : Bytes} {l1 : Nat} (hR : ∀ p : Pos, p.line = ln → R (.literal {} p (b!"." ++ y))) : Gen [W ln 46 b!".", W l1 K.int y] (.n .primary) (OE R) :=
  Gen.prod1 Fm.primary_41 (by decide) (Gen.prod2 Fm.number_142 (by decide) (gtok ln 46 b!".") (gtok l1 K.int y) (R := OE R)
    (fun v1 v2 h1 h2 => ⟨_, rfl, by
      show R (.literal {} v1.pos (b!"." ++ v2.tok))
      rw [h2.tok]; exact hR _ (h1.at (by decide))⟩)) (fun v h => ⟨v, rfl, h⟩)

theorem g_dot {name as} {l1 : Nat} (h : Gen as (.n .primary) (OE R1)) (hR : ∀ x' (dp np : Pos), R1 x' → np.line = ln → R (.dot {} x' dp np name)) :
    Gen (as ++ [W l1 46 b!".", W ln K.ident name]) (.n .primary) (OE R) :=
  Gen.prod3 Fm.primary_43 (by decide) h (gtok l1 46 b!".") (gtok ln K.ident name) (fun v1 v2 v3 h1 h2 h3 => ⟨_, rfl, by
    show R (.dot {} v1.expr v2.pos v3.pos v3.tok)
    rw [h3.tok]; exact hR _ _ _ h1 (h3.at (by decide))⟩)

theorem g_call {α : Type} {ρ : α → Expr → Prop} {l : List α} {as1 as m} (hx : Gen as1 (.n .primaryExpr) (OE R1)) (h : SeqA (fun x as => Gen as (.n .argument) (OE (ρ x))) m l as)
    (hR : ∀ (x' : Expr) (p e : Pos) (l' : List Expr), R1 x' → p.line = a → e.line = z → All2 ρ l l' → R (.call {} x' p l' ⟨{}, e⟩ (forceCompact p l' e) (forceMultiLine p l' e))) :
    Gen (as1 ++ W a 40 b!"(" :: (as ++ [W z 41 b!")"])) (.n .primary) (OE R) := by
  obtain ⟨ass, tc, h1, rfl, h2, _⟩ := h
  have : Gen (joinC ass ++ tcomma tc) (.n .argumentsOpt) (OL ρ l) := by
    by_cases hl : l = []
    · subst hl
      cases h1
      rw [h2 rfl]
      exact Gen.prod0 Fm.argumentsOpt_55 (by decide) ⟨_, rfl, .nil⟩
    · exact Gen.prod2 Fm.argumentsOpt_56 (by decide) (l_args.join h1 hl) (g_commasOpt tc) (fun v _ q _ => ⟨v, rfl, q⟩)
  exact Gen.prod4 Fm.primary_45 (by decide) hx (gtok a 40 b!"(") this (gtok z 41 b!")") (fun _ _ _ _ q1 q2 q3 q4 =>
    ⟨_, rfl, hR _ _ _ _ q1 (q2.at (by decide)) (q4.at (by decide)) q3⟩)

theorem g_index {as1 as2} (hx : Gen as1 (.n .primaryExpr) (OE R1)) (hy : Gen as2 (.n .expr) (OE R2))
    (hR : ∀ x' y' (p e : Pos), R1 x' → R2 y' → e.line = z → R (.index {} x' p y' e)) :
    Gen (as1 ++ W a 91 b!"[" :: (as2 ++ [W z 93 b!"]"])) (.n .primary) (OE R) :=
  Gen.prod4 Fm.primary_46 (by decide) hx (gtok a 91 b!"[") hy (gtok z 93 b!"]") (fun _ _ _ _ q1 _ q3 q4 => ⟨_, rfl, hR _ _ _ _ q1 q3 (q4.at (by decide))⟩)

theorem g_slice1 {as1 as2 as3} (hx : Gen as1 (.n .primaryExpr) (OE R1)) (hy : Gen as2 (.n .exprOpt) (OE R2)) (hz : Gen as3 (.n .testOpt) (OE R3))
    (hR : ∀ x' y' z' (p c1 e : Pos), R1 x' → R2 y' → R3 z' → e.line = z → R (.slice {} x' p y' c1 z' {} .nil e)) :
    Gen (as1 ++ W a 91 b!"[" :: (as2 ++ W ln 58 b!":" :: (as3 ++ [W z 93 b!"]"]))) (.n .primary) (OE R) :=
  Gen.prod6 Fm.primary_47 (by decide) hx (gtok a 91 b!"[") hy (gtok ln 58 b!":") hz (gtok z 93 b!"]") (fun _ _ _ _ _ _ q1 _ q3 _ q5 q6 =>
    ⟨_, rfl, hR _ _ _ _ _ _ q1 q3 q5 (q6.at (by decide))⟩)

theorem g_slice2 {as1 as2 as3 as4} {l2 : Nat} (hx : Gen as1 (.n .primaryExpr) (OE R1)) (hy : Gen as2 (.n .exprOpt) (OE R2))
    (hz : Gen as3 (.n .testOpt) (OE R3)) (hw : Gen as4 (.n .testOpt) (OE R4))
    (hR : ∀ x' y' z' w' (p c1 c2 e : Pos), R1 x' → R2 y' → R3 z' → R4 w' → c2.byte ≠ 0 → e.line = z → R (.slice {} x' p y' c1 z' c2 w' e)) :
    Gen (as1 ++ W a 91 b!"[" :: (as2 ++ W ln 58 b!":" :: (as3 ++ W l2 58 b!":" :: (as4 ++ [W z 93 b!"]"])))) (.n .primary) (OE R) :=
  Gen.prod8 Fm.primary_48 (by decide) hx (gtok a 91 b!"[") hy (gtok ln 58 b!":") hz (gtok l2 58 b!":") hw (gtok z 93 b!"]") (fun _ _ _ _ _ v6 _ _ q1 _ q3 _ q5 q6 q7 q8 =>
    ⟨_, rfl, hR _ _ _ _ _ _ _ _ q1 q3 q5 q7 (q6.byte rfl) (q8.at (by decide))⟩)

/-! ## Operators -/

/-- a sign before an operand -/
theorem g_unary {op as} (hop : op ∈ unOps) (h : Gen as (.n .primaryExpr) (OE R1)) (hR : ∀ (p : Pos) x', p.line = ln → R1 x' → R (.unary {} p op x')) :
    Gen (W ln (unKind op) op :: as) (.n (.test 13 false)) (OE R) := by
  have h' := primExpr_up h
  have key : ∀ (k : Kind) (r : Nat) (_ : loose k = false) (_ : (FNT.test 13 false, r, [FSym.t k, .n (.test 13 false)]) ∈ fine) (_ : r ≠ 0)
      (_ : ∀ v1 v2, sem r [v1, v2] = some { v1 with expr := mkUnary v1.pos v1.tok v2.expr }),
      Gen (W ln k op :: as) (.n (.test 13 false)) (OE R) := by
    intro k r hk hm hr hs
    exact Gen.prod2 hm hr (gtok ln k op) h' (fun v1 v2 q1 q2 => ⟨_, hs v1 v2, by
      show R (.unary {} v1.pos v1.tok v2.expr)
      rw [q1.tok]; exact hR _ _ (q1.at hk) q2⟩)
  simp only [unOps, List.mem_cons, List.not_mem_nil, or_false] at hop
  rcases hop with rfl | rfl | rfl | rfl
  · exact (key _ 91 (by decide) Fm.test13false_91 (by decide) (fun _ _ => rfl))
  · exact (key _ 92 (by decide) Fm.test13false_92 (by decide) (fun _ _ => rfl))
  · exact (key _ 93 (by decide) Fm.test13false_93 (by decide) (fun _ _ => rfl))
  · exact (key _ 94 (by decide) Fm.test13false_94 (by decide) (fun _ _ => rfl))

/-- the tokens of a binary operator -/
def opToks (ln : Nat) (op : Bytes) : List LTok :=
  if op = b!"not in" then [W ln K.not b!"not", W ln K.in_ b!"in"]
  else if op = b!"is not" then [W ln K.is b!"is", W ln K.not b!"not"]
  else [W ln (opKind op) op]

/-- a binary node as the parser builds it -/
abbrev BinR (op : Bytes) (R1 R2 R : Expr → Prop) : Prop :=
  ∀ x' y' (p : Pos), R1 x' → R2 y' → R (.binary {} x' p op (decide (x'.endPos.line < y'.startPos.line)) y')

theorem g_binary {op as1 as2} (hop : op ∈ binOps) (hx : Gen as1 (.n (.test (opPrec op) false)) (OE R1))
    (hy : Gen as2 (.n (.test (opPrec op + 1) false)) (OE R2)) (hR : BinR op R1 R2 R) :
    Gen (as1 ++ (opToks ln op ++ as2)) (.n (.test (opPrec op) false)) (OE R) := by
  have key : ∀ (q : Nat) (k : Kind) (r : Nat) (_ : opPrec op = q) (_ : (FNT.test q false, r, [.n (.test q false), FSym.t k, .n (.test (q + 1) false)]) ∈ fine) (_ : r ≠ 0)
      (_ : ∀ v1 v2 v3, sem r [v1, v2, v3] = some { v1 with expr := mkBinary v1.expr v2.pos v2.tok v3.expr }) (_ : isAssignOp op = false),
      Gen (as1 ++ ([W ln k op] ++ as2)) (.n (.test (opPrec op) false)) (OE R) := by
    intro q k r hq hm hr hs ha
    rw [hq] at hx hy ⊢
    refine Gen.prod3 hm hr hx (gtok ln k op) hy (fun v1 v2 v3 q1 q2 q3 => ⟨_, hs v1 v2 v3, ?_⟩)
    show R (mkBinary v1.expr v2.pos v2.tok v3.expr)
    rw [show v2.tok = op from q2.tok]
    unfold mkBinary
    rw [if_neg (by rw [ha]; decide)]
    exact hR _ _ _ q1 q3
  simp only [binOps, List.mem_cons, List.not_mem_nil, or_false] at hop
  rcases hop with rfl | rfl | rfl | rfl | rfl | rfl | rfl | rfl | rfl | rfl | rfl | rfl | rfl | rfl | rfl | rfl | rfl | rfl | rfl | rfl | rfl
  · exact key 4 _ 109 (by decide) Fm.test4false_109 (by decide) (fun _ _ _ => rfl) (by decide)
  · exact key 5 _ 110 (by decide) Fm.test5false_110 (by decide) (fun _ _ _ => rfl) (by decide)
  · exact key 6 _ 101 (by decide) Fm.test6false_101 (by decide) (fun _ _ _ => rfl) (by decide)
  · exact key 6 _ 102 (by decide) Fm.test6false_102 (by decide) (fun _ _ _ => rfl) (by decide)
  · exact key 6 _ 103 (by decide) Fm.test6false_103 (by decide) (fun _ _ _ => rfl) (by decide)
  · exact key 6 _ 104 (by decide) Fm.test6false_104 (by decide) (fun _ _ _ => rfl) (by decide)
  · exact key 6 _ 105 (by decide) Fm.test6false_105 (by decide) (fun _ _ _ => rfl) (by decide)
  · exact key 6 _ 106 (by decide) Fm.test6false_106 (by decide) (fun _ _ _ => rfl) (by decide)
  · exact key 6 _ 107 (by decide) Fm.test6false_107 (by decide) (fun _ _ _ => rfl) (by decide)
  · have hp : opPrec b!"not in" = 6 := by decide
    rw [hp] at hx hy ⊢
    refine Gen.prod4 Fm.test6false_108 (by decide) hx (gtok ln K.not b!"not") (gtok ln K.in_ b!"in") hy (fun v1 v2 v3 v4 q1 q2 q3 q4 => ⟨_, rfl, ?_⟩)
    show R (mkBinary v1.expr v2.pos b!"not in" v4.expr)
    exact hR _ _ _ q1 q4
  · exact key 7 _ 111 (by decide) Fm.test7false_111 (by decide) (fun _ _ _ => rfl) (by decide)
  · exact key 8 _ 113 (by decide) Fm.test8false_113 (by decide) (fun _ _ _ => rfl) (by decide)
  · exact key 9 _ 112 (by decide) Fm.test9false_112 (by decide) (fun _ _ _ => rfl) (by decide)
  · exact key 10 _ 114 (by decide) Fm.test10false_114 (by decide) (fun _ _ _ => rfl) (by decide)
  · exact key 10 _ 115 (by decide) Fm.test10false_115 (by decide) (fun _ _ _ => rfl) (by decide)
  · exact key 11 _ 99 (by decide) Fm.test11false_99 (by decide) (fun _ _ _ => rfl) (by decide)
  · exact key 11 _ 100 (by decide) Fm.test11false_100 (by decide) (fun _ _ _ => rfl) (by decide)
  · exact key 12 _ 95 (by decide) Fm.test12false_95 (by decide) (fun _ _ _ => rfl) (by decide)
  · exact key 12 _ 96 (by decide) Fm.test12false_96 (by decide) (fun _ _ _ => rfl) (by decide)
  · exact key 12 _ 97 (by decide) Fm.test12false_97 (by decide) (fun _ _ _ => rfl) (by decide)
  · exact key 12 _ 98 (by decide) Fm.test12false_98 (by decide) (fun _ _ _ => rfl) (by decide)

theorem g_is {as1 as2 o} (hn : ∀ y', R2 y' → isNot y' = false) (hx : Gen as1 (.n (.test 3 false)) (OE R1)) (hy : Gen as2 (.n (.test 4 o)) (OE R2)) (hR : BinR b!"is" R1 R2 R) :
    Gen (as1 ++ (opToks ln b!"is" ++ as2)) (.n (.test 3 o)) (OE R) := by
  have hs : ∀ v1 v2 v3, OE R1 v1 → TV (W ln K.is b!"is") v2 → OE R2 v3 → ∃ v, sem 116 [v1, v2, v3] = some v ∧ OE R v := by
    intro v1 v2 v3 q1 q2 q3
    obtain ⟨v, e1, e2⟩ := sem116_is (v1 := v1) (v2 := v2) (v3 := v3) (hn _ q3)
    refine ⟨v, e1, ?_⟩
    show R v.expr
    rw [e2, q2.tok]
    exact hR _ _ _ q1 q3
  cases o
  · exact Gen.prod3 Fm.test3false_116 (by decide) hx (gtok ln K.is b!"is") hy hs
  · exact Gen.prod3 Fm.test3true_116 (by decide) hx (gtok ln K.is b!"is") hy hs

theorem g_isNot {as1 as2 o} (hx : Gen as1 (.n (.test 3 false)) (OE R1)) (hy : Gen as2 (.n (.test 13 o)) (OE R2)) (hR : BinR b!"is not" R1 R2 R) :
    Gen (as1 ++ (opToks ln b!"is not" ++ as2)) (.n (.test 3 o)) (OE R) := by
  have hn : Gen (W ln K.not b!"not" :: as2) (.n (.test 13 o)) (fun v => ∃ p y', v.expr = .unary {} p b!"not" y' ∧ R2 y') := by
    cases o
    · exact Gen.prod2 Fm.test13false_91 (by decide) (gtok ln K.not b!"not") hy (fun v1 v2 q1 q2 => ⟨_, rfl, _, _, by
        show mkUnary v1.pos v1.tok v2.expr = _
        rw [q1.tok]; rfl, q2⟩)
    · exact Gen.prod2 Fm.test13true_91 (by decide) (gtok ln K.not b!"not") hy (fun v1 v2 q1 q2 => ⟨_, rfl, _, _, by
        show mkUnary v1.pos v1.tok v2.expr = _
        rw [q1.tok]; rfl, q2⟩)
  have hn4 := test_up (p := 4) (by omega) (by omega) (by omega) hn
  have hs : ∀ v1 v2 v3, OE R1 v1 → TV (W ln K.is b!"is") v2 → (∃ p y', v3.expr = .unary {} p b!"not" y' ∧ R2 y') →
      ∃ v, sem 116 [v1, v2, v3] = some v ∧ OE R v := by
    rintro v1 v2 v3 q1 q2 ⟨p', y', e3, q3⟩
    obtain ⟨v, e1, e2⟩ := sem116_isNot (v1 := v1) (v2 := v2) (v3 := v3) e3
    refine ⟨v, e1, ?_⟩
    show R v.expr
    rw [e2]
    exact hR _ _ _ q1 q3
  cases o
  · exact (Gen.prod3 Fm.test3false_116 (by decide) hx (gtok ln K.is b!"is") hn4 hs :)
  · exact (Gen.prod3 Fm.test3true_116 (by decide) hx (gtok ln K.is b!"is") hn4 hs :)

theorem g_cond {as1 as2 as3} {l2 : Nat} (h1 : Gen as1 (.n (.test 2 false)) (OE R1)) (h2 : Gen as2 (.n (.any 2)) (OE R2)) (h3 : Gen as3 (.n (.test 3 false)) (OE R3))
    (hR : ∀ x' y' z' (p q : Pos), R1 x' → R2 y' → R3 z' → R (.cond {} x' p y' q z')) :
    Gen (as1 ++ W ln K.if_ b!"if" :: (as2 ++ W l2 K.else_ b!"else" :: as3)) (.n (.test 2 false)) (OE R) :=
  Gen.prod5 Fm.test2false_117 (by decide) h1 (gtok ln K.if_ _) h2 (gtok l2 K.else_ _) h3 (fun _ _ _ _ _ q1 _ q3 _ q5 =>
    ⟨_, rfl, hR _ _ _ _ _ q1 q3 q5⟩)

theorem g_lambda {α : Type} {ρ : α → Expr → Prop} {ps : List α} {ass as2} {l2 : Nat} (h1 : All2 (fun x as => Gen as (.n .parameter) (OE (ρ x))) ps ass) (h2 : Gen as2 (.n (.any 2)) (OE R2))
    (hR : ∀ (p : Pos) ps' b', p.line = ln → All2 ρ ps ps' → R2 b' → R (.lambda {} p ps' [b'])) :
    Gen (W ln K.lambda b!"lambda" :: (joinC ass ++ W l2 58 b!":" :: as2)) (.n (.test 13 true)) (OE R) := by
  have hp : Gen (joinC ass) (.n .parametersOpt) (OL ρ ps) := by
    by_cases hl : ps = []
    · subst hl
      cases h1
      exact Gen.prod0 Fm.parametersOpt_67 (by decide) ⟨_, rfl, .nil⟩
    · exact (Gen.prod2 Fm.parametersOpt_68 (by decide) (l_params.join h1 hl) (g_commaOpt false) (R := OL ρ ps) (fun v _ q _ => ⟨v, rfl, q⟩)).cast (by simp [tcomma])
  have hb : Gen as2 (.n .lambdaBody) (OE R2) := Gen.prod1 Fm.lambdaBody_85 (by decide) h2 (fun v q => ⟨v, rfl, q⟩)
  exact Gen.prod4 Fm.test13true_90 (by decide) (gtok ln K.lambda _) hp (gtok l2 58 b!":") hb (fun _ _ _ _ q1 q2 _ q4 => ⟨_, rfl, hR _ _ _ (q1.at (by decide)) q2 q4⟩)

/-! ## Arguments, parameters -/

/-- an assignment node as the parser builds it -/
abbrev AsgR (op : Bytes) (R1 R2 R : Expr → Prop) : Prop :=
  ∀ x' y' (p : Pos), R1 x' → R2 y' → R (.assign {} x' p op (decide (x'.endPos.line < y'.startPos.line)) y')

theorem mkBinary_eq (x : Expr) (p : Pos) (y : Expr) : mkBinary x p b!"=" y = .assign {} x p b!"=" (decide (x.endPos.line < y.startPos.line)) y := rfl

abbrev IdR (ln : Nat) (n : Bytes) (x : Expr) : Prop := ∃ n', x = .ident n' ∧ IdAt ln n n'

theorem g_argNamed {n as} {l2 : Nat} (h : Gen as (.n (.any 2)) (OE R2)) (hR : AsgR b!"=" (IdR ln n) R2 R) :
    Gen (W ln K.ident n :: (W l2 61 b!"=" :: as)) (.n .argument) (OE R) :=
  Gen.prod3 Fm.argument_60 (by decide) (g_ident ln n) (gtok l2 61 b!"=") h (fun v1 v2 v3 q1 q2 q3 => ⟨_, rfl, by
    show R (mkBinary v1.expr v2.pos v2.tok v3.expr)
    rw [q2.tok]
    exact hR _ _ _ q1 q3⟩)

theorem g_argStar {as} (h : Gen as (.n (.any 2)) (OE R1)) (hR : ∀ (p : Pos) x', p.line = ln → R1 x' → R (.unary {} p b!"*" x')) : Gen (W ln 42 b!"*" :: as) (.n .argument) (OE R) :=
  Gen.prod2 Fm.argument_61 (by decide) (gtok ln 42 b!"*") h (fun v1 v2 q1 q2 => ⟨_, rfl, by
    show R (.unary {} v1.pos v1.tok v2.expr)
    rw [q1.tok]; exact hR _ _ (q1.at (by decide)) q2⟩)

theorem g_argStarStar {as} (h : Gen as (.n (.any 2)) (OE R1)) (hR : ∀ (p : Pos) x', p.line = ln → R1 x' → R (.unary {} p b!"**" x')) : Gen (W ln K.starStar b!"**" :: as) (.n .argument) (OE R) :=
  Gen.prod2 Fm.argument_62 (by decide) (gtok ln K.starStar b!"**") h (fun v1 v2 q1 q2 => ⟨_, rfl, by
    show R (.unary {} v1.pos v1.tok v2.expr)
    rw [q1.tok]; exact hR _ _ (q1.at (by decide)) q2⟩)

theorem g_arg {as} (h : Gen as (.n (.any 2)) (OE R)) : Gen as (.n .argument) (OE R) := Gen.prod1 Fm.argument_59 (by decide) h (fun v q => ⟨v, rfl, q⟩)

theorem g_param {n} (hR : ∀ n', IdAt ln n n' → R (.ident n')) : Gen [W ln K.ident n] (.n .parameter) (OE R) :=
  Gen.prod1 Fm.parameter_75 (by decide) (g_ident ln n) (fun v ⟨n', e, q⟩ => ⟨v, rfl, by show R v.expr; rw [e]; exact hR _ q⟩)

theorem g_paramDefault {n as} {l2 : Nat} (h : Gen as (.n (.any 2)) (OE R2)) (hR : AsgR b!"=" (IdR ln n) R2 R) :
    Gen (W ln K.ident n :: (W l2 61 b!"=" :: as)) (.n .parameter) (OE R) :=
  Gen.prod3 Fm.parameter_76 (by decide) (g_ident ln n) (gtok l2 61 b!"=") h (fun v1 v2 v3 q1 q2 q3 => ⟨_, rfl, by
    show R (mkBinary v1.expr v2.pos v2.tok v3.expr)
    rw [q2.tok]
    exact hR _ _ _ q1 q3⟩)

theorem g_paramBare (hR : ∀ p : Pos, p.line = ln → R (.unary {} p b!"*" .nil)) : Gen [W ln 42 b!"*"] (.n .parameter) (OE R) :=
  Gen.prod1 Fm.parameter_78 (by decide) (gtok ln 42 b!"*") (fun v1 q1 => ⟨_, rfl, by
    show R (.unary {} v1.pos v1.tok .nil)
    rw [q1.tok]; exact hR _ (q1.at (by decide))⟩)

theorem g_paramStar {n} {l2 : Nat} (hR : ∀ (p : Pos) n', p.line = ln → IdAt l2 n n' → R (.unary {} p b!"*" (.ident n'))) : Gen [W ln 42 b!"*", W l2 K.ident n] (.n .parameter) (OE R) :=
  Gen.prod2 Fm.parameter_77 (by decide) (gtok ln 42 b!"*") (g_ident l2 n) (fun v1 v2 q1 ⟨n', e, q⟩ => ⟨_, rfl, by
    show R (.unary {} v1.pos v1.tok v2.expr)
    rw [q1.tok, e]; exact hR _ _ (q1.at (by decide)) q⟩)

theorem g_paramStarStar {n} {l2 : Nat} (hR : ∀ (p : Pos) n', p.line = ln → IdAt l2 n n' → R (.unary {} p b!"**" (.ident n'))) : Gen [W ln K.starStar b!"**", W l2 K.ident n] (.n .parameter) (OE R) :=
  Gen.prod2 Fm.parameter_79 (by decide) (gtok ln K.starStar b!"**") (g_ident l2 n) (fun v1 v2 q1 ⟨n', e, q⟩ => ⟨_, rfl, by
    show R (.unary {} v1.pos v1.tok v2.expr)
    rw [q1.tok, e]; exact hR _ _ (q1.at (by decide)) q⟩)

theorem g_paramT {as} (h : Gen as (.n .parameter) (OE R)) : Gen as (.n .parameterType) (OE R) :=
  Gen.prod1 Fm.parameterType_80 (by decide) h (fun v q => ⟨v, rfl, q⟩)

/-- a typed name as the parser builds it -/
def TyR (ln : Nat) (n : Bytes) (R1 : Expr → Prop) (x : Expr) : Prop := ∃ n' t', x = .typedIdent {} n' t' ∧ IdAt ln n n' ∧ R1 t'

theorem tyR_mk {n} {v : Val} {n' : IdentN} {t' : Expr} (e : v.expr = .ident n') (q : IdAt ln n n') (ht : R1 t') : TyR ln n R1 (mkTyped v.expr t') := by
  rw [e]; exact ⟨n', t', rfl, q, ht⟩

theorem g_typed {n as} {l2 : Nat} (h : Gen as (.n (.any 2)) (OE R1)) (hR : ∀ x', TyR ln n R1 x' → R x') : Gen (W ln K.ident n :: (W l2 58 b!":" :: as)) (.n .parameterType) (OE R) :=
  Gen.prod3 Fm.parameterType_81 (by decide) (g_ident ln n) (gtok l2 58 b!":") h (fun v1 v2 v3 ⟨n', e, q⟩ q2 q3 => ⟨_, rfl, hR _ (tyR_mk e q q3)⟩)

theorem g_typedDefault {n as1 as2} {l2 l3 : Nat} (h : Gen as1 (.n (.any 2)) (OE R1)) (h2 : Gen as2 (.n (.any 2)) (OE R2)) (hR : AsgR b!"=" (TyR ln n R1) R2 R) :
    Gen (W ln K.ident n :: (W l2 58 b!":" :: (as1 ++ (W l3 61 b!"=" :: as2)))) (.n .parameterType) (OE R) :=
  Gen.prod5 Fm.parameterType_82 (by decide) (g_ident ln n) (gtok l2 58 b!":") h (gtok l3 61 b!"=") h2 (fun v1 v2 v3 v4 v5 ⟨n', e, q⟩ q2 q3 q4 q5 => ⟨_, rfl, by
    show R (mkBinary (mkTyped v1.expr v3.expr) v4.pos v4.tok v5.expr)
    rw [q4.tok]
    exact hR _ _ _ (tyR_mk e q q3) q5⟩)

theorem g_typedStar {n as} {l2 l3 : Nat} (h : Gen as (.n (.any 2)) (OE R1)) (hR : ∀ (p : Pos) x', p.line = ln → TyR l2 n R1 x' → R (.unary {} p b!"*" x')) :
    Gen (W ln 42 b!"*" :: (W l2 K.ident n :: (W l3 58 b!":" :: as))) (.n .parameterType) (OE R) :=
  Gen.prod4 Fm.parameterType_83 (by decide) (gtok ln 42 b!"*") (g_ident l2 n) (gtok l3 58 b!":") h (fun v1 v2 v3 v4 q1 ⟨n', e, q⟩ q3 q4 => ⟨_, rfl, by
    show R (.unary {} v1.pos v1.tok (mkTyped v2.expr v4.expr))
    rw [q1.tok]
    exact hR _ _ (q1.at (by decide)) (tyR_mk e q q4)⟩)

theorem g_typedStarStar {n as} {l2 l3 : Nat} (h : Gen as (.n (.any 2)) (OE R1)) (hR : ∀ (p : Pos) x', p.line = ln → TyR l2 n R1 x' → R (.unary {} p b!"**" x')) :
    Gen (W ln K.starStar b!"**" :: (W l2 K.ident n :: (W l3 58 b!":" :: as))) (.n .parameterType) (OE R) :=
  Gen.prod4 Fm.parameterType_84 (by decide) (gtok ln K.starStar b!"**") (g_ident l2 n) (gtok l3 58 b!":") h (fun v1 v2 v3 v4 q1 ⟨n', e, q⟩ q3 q4 => ⟨_, rfl, by
    show R (.unary {} v1.pos v1.tok (mkTyped v2.expr v4.expr))
    rw [q1.tok]
    exact hR _ _ (q1.at (by decide)) (tyR_mk e q q4)⟩)

theorem g_kv {as1 as2} (h1 : Gen as1 (.n (.any 2)) (OE R1)) (h2 : Gen as2 (.n (.any 2)) (OE R2)) (hR : ∀ x' y' (p : Pos), R1 x' → R2 y' → R (.keyValue {} x' p y')) :
    Gen (as1 ++ W ln 58 b!":" :: as2) (.n .keyvalue) (OE R) :=
  Gen.prod3 Fm.keyvalue_130 (by decide) h1 (gtok ln 58 b!":") h2 (fun _ _ _ q1 _ q3 => ⟨_, rfl, hR _ _ _ q1 q3⟩)

/-! ## Tuples without parentheses -/

/-- the value of a tuple under construction -/
def SB {α : Type} (ρ : α → Expr → Prop) (l : List α) (v : Val) : Prop :=
  match l with
  | [x] => isBare v.expr = false ∧ ρ x v.expr
  | l => ∃ l', v.expr = .tuple {} true {} l' {} true false ∧ All2 ρ l l'

theorem tupleAppend_spec {α : Type} {ρ : α → Expr → Prop} {l : List α} {v : Val} {x : α} {x' : Expr} (hl : l ≠ []) (h : SB ρ l v) (hx : ρ x x') :
    ∃ l', tupleAppend v.expr x' = .tuple {} true {} l' {} true false ∧ All2 ρ (l ++ [x]) l' := by
  match l, hl, h with
  | [y], _, ⟨hb, hs⟩ =>
    have : tupleAppend v.expr x' = .tuple {} true {} [v.expr, x'] {} true false := by
      unfold tupleAppend
      cases hv : v.expr <;> try rfl
      rename_i c nb s l e fc fm
      cases nb
      · rfl
      · rw [hv] at hb; cases hb
    exact ⟨_, this, .cons _ _ _ _ hs (.cons _ _ _ _ hx .nil)⟩
  | y :: z :: l, _, ⟨l', hv, hs⟩ =>
    rw [hv]
    exact ⟨l' ++ [x'], rfl, All2.snoc hs hx⟩

theorem SB.snoc {α : Type} {ρ : α → Expr → Prop} {l : List α} {x : α} (hl : l ≠ []) {v : Val} (h : ∃ l', v.expr = .tuple {} true {} l' {} true false ∧ All2 ρ (l ++ [x]) l') : SB ρ (l ++ [x]) v := by
  match l, hl with
  | y :: l, _ =>
    cases l with
    | nil => exact h
    | cons z l => exact h

theorem SB.se {α : Type} {ρ : α → Expr → Prop} {l : List α} (hl : 2 ≤ l.length) {v : Val} (h : SB ρ l v) : ∃ l', v.expr = .tuple {} true {} l' {} true false ∧ All2 ρ l l' := by
  match l, hl, h with
  | x :: y :: l, _, h => exact h

/-- the elements of a tuple without parentheses -/
theorem g_exprs {α : Type} {ρ : α → Expr → Prop} {x : α} {l : List α} {a ass} (hx : Gen a (.n (.any 2)) (fun v => isBare v.expr = false ∧ ρ x v.expr))
    (h : All2 (fun x as => Gen as (.n (.any 3)) (OE (ρ x))) l ass) : Gen (a ++ ass.flatMap (comma :: ·)) (.n .expr) (SB ρ (x :: l)) := by
  have key : ∀ (l : List α) (ass : List (List LTok)) (done : List α) (acc : List LTok), All2 (fun x as => Gen as (.n (.any 3)) (OE (ρ x))) l ass → done ≠ [] →
      Gen acc (.n .expr) (SB ρ done) → Gen (acc ++ ass.flatMap (comma :: ·)) (.n .expr) (SB ρ (done ++ l)) := by
    intro l ass done acc h
    induction h generalizing done acc with
    | nil => intro _ hd; simpa using hd
    | cons x a l ass hx _ ih =>
      intro hn hd
      have h1 : Gen (acc ++ ([comma] ++ a)) (.n .expr) (SB ρ (done ++ [x])) :=
        Gen.prod3 Fm.expr_86 (by decide) hd (gtok 0 44 b!",") hx (fun v1 v2 v3 q1 q2 q3 => ⟨_, rfl, SB.snoc hn (tupleAppend_spec hn q1 q3)⟩)
      have := ih (done ++ [x]) _ (by simp) h1
      simpa using this
  have h0 : Gen a (.n .expr) (SB ρ [x]) := Gen.prod1 Fm.expr_85 (by decide) hx (fun v q => ⟨v, rfl, q⟩)
  exact key l ass [x] a h (by simp) h0

theorem g_vars {α : Type} {ρ : α → Expr → Prop} {x : α} {l : List α} {a ass} (hx : Gen a (.n .primaryExpr) (fun v => isBare v.expr = false ∧ ρ x v.expr))
    (h : All2 (fun x as => Gen as (.n .primaryExpr) (OE (ρ x))) l ass) : Gen (a ++ ass.flatMap (comma :: ·)) (.n .loopVars) (SB ρ (x :: l)) := by
  have key : ∀ (l : List α) (ass : List (List LTok)) (done : List α) (acc : List LTok), All2 (fun x as => Gen as (.n .primaryExpr) (OE (ρ x))) l ass → done ≠ [] →
      Gen acc (.n .loopVars) (SB ρ done) → Gen (acc ++ ass.flatMap (comma :: ·)) (.n .loopVars) (SB ρ (done ++ l)) := by
    intro l ass done acc h
    induction h generalizing done acc with
    | nil => intro _ hd; simpa using hd
    | cons x a l ass hx _ ih =>
      intro hn hd
      have h1 : Gen (acc ++ ([comma] ++ a)) (.n .loopVars) (SB ρ (done ++ [x])) :=
        Gen.prod3 Fm.loopVars_137 (by decide) hd (gtok 0 44 b!",") hx (fun v1 v2 v3 q1 q2 q3 => ⟨_, rfl, SB.snoc hn (tupleAppend_spec hn q1 q3)⟩)
      have := ih (done ++ [x]) _ (by simp) h1
      simpa using this
  have h0 : Gen a (.n .loopVars) (SB ρ [x]) := Gen.prod1 Fm.loopVars_136 (by decide) hx (fun v q => ⟨v, rfl, q⟩)
  exact key l ass [x] a h (by simp) h0

theorem g_expr {as} (h : Gen as (.n (.any 2)) (OE R)) : Gen as (.n .expr) (OE R) := Gen.prod1 Fm.expr_85 (by decide) h (fun v q => ⟨v, rfl, q⟩)
theorem g_var {as} (h : Gen as (.n .primaryExpr) (OE R)) : Gen as (.n .loopVars) (OE R) := Gen.prod1 Fm.loopVars_136 (by decide) h (fun v q => ⟨v, rfl, q⟩)

/-! ## Optional expressions -/

theorem g_exprNone : Gen [] (.n .exprOpt) (OE (· = .nil)) := Gen.prod0 Fm.exprOpt_87 (by decide) ⟨_, rfl, rfl⟩
theorem g_exprSome {as} (h : Gen as (.n .expr) (OE R)) : Gen as (.n .exprOpt) (OE R) := Gen.prod1 Fm.exprOpt_88 (by decide) h (fun v q => ⟨v, rfl, q⟩)
theorem g_testNone : Gen [] (.n .testOpt) (OE (· = .nil)) := Gen.prod0 Fm.testOpt_120 (by decide) ⟨_, rfl, rfl⟩
theorem g_testSome {as} (h : Gen as (.n (.any 2)) (OE R)) : Gen as (.n .testOpt) (OE R) := Gen.prod1 Fm.testOpt_121 (by decide) h (fun v q => ⟨v, rfl, q⟩)

/-! ## Load statements -/

/-- the elements of a load statement -/
def LoadElem (x : Expr) (as : List LTok) : Prop :=
  match x with
  | .string n => ∃ ln t, as = [WS ln t n.value n.triple]
  | .assign _ (.ident n) _ _ _ (.string m) => ∃ ln l2 l3 t, as = [W ln K.ident n.name, W l2 61 b!"=", WS l3 t m.value m.triple]
  | _ => False

/-- the names loaded -/
def SLoad (fs ts : List IdentN) (v : Val) : Prop :=
  v.loadargs.map (·.1.name) = fs.map (·.name) ∧ v.loadargs.map (·.2.name) = ts.map (·.name) ∧ ∀ q ∈ v.loadargs, q.1.comments = {} ∧ q.2.comments = {}

theorem g_loadArg {f t : IdentN} {as} (h : LoadElem (if f.name = t.name then .string { identString f with comments := { f.comments with before := t.comments.before } }
     else .assign {} (.ident t) {} b!"=" false (.string (identString f))) as) : Gen as (.n .loadArgument) (SLoad [f] [t]) := by
  by_cases hn : f.name = t.name
  · rw [if_pos hn] at h
    obtain ⟨ln, tx, rfl⟩ := h
    refine Gen.prod1 Fm.loadArgument_65 (by decide) (g_string ln tx f.name false) ?_
    rintro v ⟨n', e, h1⟩
    refine ⟨_, rfl, ?_, ?_, ?_⟩
    · show [(asString v.expr).value] = [f.name]
      rw [e]; show [n'.value] = _; rw [h1.value]
    · show [(asString v.expr).value] = [t.name]
      rw [e]; show [n'.value] = _; rw [h1.value, hn]
    · intro q hq
      rw [List.mem_singleton.1 hq]
      exact ⟨rfl, rfl⟩
  · rw [if_neg hn] at h
    obtain ⟨ln, l2, l3, tx, rfl⟩ := h
    refine Gen.prod3 Fm.loadArgument_66 (by decide) (g_ident ln t.name) (gtok l2 61 b!"=") (g_string l3 tx f.name false) ?_
    rintro v1 v2 v3 ⟨n1, e1, q1⟩ _ ⟨n', e, h1⟩
    refine ⟨_, rfl, ?_, ?_, ?_⟩
    · show [(asString v3.expr).value] = [f.name]
      rw [e]; show [n'.value] = _; rw [h1.value]
    · show [(asIdent v1.expr).name] = [t.name]
      rw [e1]; show [n1.name] = _; rw [q1.name]
    · intro q hq
      rw [List.mem_singleton.1 hq]
      refine ⟨rfl, ?_⟩
      show (asIdent v1.expr).comments = {}
      rw [e1]; exact q1.comm

theorem g_loadArgs : ∀ {fs ts : List IdentN} {ass}, fs.length = ts.length → fs ≠ [] → All2 LoadElem (loadArgs fs ts) ass →
    Gen (joinC ass) (.n .loadArguments) (SLoad fs ts) := by
  have key : ∀ (fs ts : List IdentN) (ass : List (List LTok)) (f0 t0 : List IdentN) (acc : List LTok), fs.length = ts.length → All2 LoadElem (loadArgs fs ts) ass →
      Gen acc (.n .loadArguments) (SLoad f0 t0) → Gen (acc ++ ass.flatMap (comma :: ·)) (.n .loadArguments) (SLoad (f0 ++ fs) (t0 ++ ts)) := by
    intro fs
    induction fs with
    | nil =>
      intro ts ass f0 t0 acc hl h hd
      cases ts with
      | cons => cases hl
      | nil => cases h; simpa using hd
    | cons f fs ih =>
      intro ts ass f0 t0 acc hl h hd
      cases ts with
      | nil => cases hl
      | cons t ts =>
        cases h with
        | cons _ a _ ass hx h =>
          have h1 : Gen (acc ++ ([comma] ++ a)) (.n .loadArguments) (SLoad (f0 ++ [f]) (t0 ++ [t])) :=
            Gen.prod3 Fm.loadArguments_64 (by decide) hd (gtok 0 44 b!",") (g_loadArg hx) (fun v1 v2 v3 q1 q2 q3 => ⟨_, rfl, by
              show (v1.loadargs ++ v3.loadargs).map _ = _
              rw [List.map_append, List.map_append, q1.1, q3.1], by
              show (v1.loadargs ++ v3.loadargs).map _ = _
              rw [List.map_append, List.map_append, q1.2.1, q3.2.1], by
              intro q hq
              rcases List.mem_append.1 hq with hq | hq
              · exact q1.2.2 q hq
              · exact q3.2.2 q hq⟩)
          have := ih ts ass (f0 ++ [f]) (t0 ++ [t]) _ (by simpa using hl) h h1
          simpa using this
  intro fs ts ass hl hn h
  cases fs with
  | nil => exact absurd rfl hn
  | cons f fs =>
    cases ts with
    | nil => cases hl
    | cons t ts =>
      cases h with
      | cons _ a _ ass hx h =>
        rw [joinC_cons]
        exact key fs ts ass [f] [t] a (by simpa using hl) h (Gen.prod1 Fm.loadArguments_63 (by decide) (g_loadArg hx) (fun v q => ⟨v, rfl, q⟩))

theorem g_load {m : StringN} {fs ts : List IdentN} {t1 : Bytes} {l1 l2 : Nat} {ass tc} (hl : fs.length = ts.length) (hn : fs ≠ [])
    (h1 : All2 LoadElem (loadArgs fs ts) ass)
    (hR : ∀ (p e : Pos) m' fs' ts' (fc : Bool), p.line = ln → e.line = z → StrAt l2 t1 m.value m.triple m' → fs'.map (·.name) = fs.map (·.name) → ts'.map (·.name) = ts.map (·.name) →
      (∀ n ∈ fs', n.comments = {}) → (∀ n ∈ ts', n.comments = {}) → fc = (l1 == z) → R (.load {} p m' fs' ts' ⟨{}, e⟩ fc)) :
    Gen (W ln K.load b!"load" :: (W l1 40 b!"(" :: ((joinC ([WS l2 t1 m.value m.triple] :: ass) ++ tcomma tc) ++ [W z 41 b!")"]))) (.n .primary) (OE R) := by
  have hne : ass ≠ [] := by
    rintro rfl
    have := h1.length
    cases fs with
    | nil => exact hn rfl
    | cons f fs => cases ts with
      | nil => cases hl
      | cons t ts => simp [loadArgs] at this
  have h2 := g_loadArgs hl hn h1
  refine (Gen.prod8 Fm.primary_44 (by decide) (gtok ln K.load b!"load") (gtok l1 40 b!"(") (g_commasOpt false) (g_string l2 t1 m.value m.triple) g_commas h2 (g_commasOpt tc) (gtok z 41 b!")")
    (R := OE R) ?_).cast ?_
  · rintro v1 v2 v3 v4 v5 v6 v7 v8 w1 w2 _ ⟨n', e4, q1⟩ _ q6 _ w8
    refine ⟨_, rfl, ?_⟩
    show R (.load {} v1.pos (asString v4.expr) (v6.loadargs.map (·.1)) (v6.loadargs.map (·.2)) ⟨{}, v8.pos⟩ (v2.pos.line == v8.pos.line))
    rw [e4]
    refine hR _ _ _ _ _ _ (w1.at (by decide)) (w8.at (by decide)) q1 ?_ ?_ ?_ ?_ (by rw [w2.at (by decide), w8.at (by decide)])
    · rw [List.map_map]; exact q6.1
    · rw [List.map_map]; exact q6.2.1
    · intro n hm
      obtain ⟨q, hq, rfl⟩ := List.mem_map.1 hm
      exact (q6.2.2 q hq).1
    · intro n hm
      obtain ⟨q, hq, rfl⟩ := List.mem_map.1 hm
      exact (q6.2.2 q hq).2
  · cases ass with
    | nil => exact absurd rfl hne
    | cons b ass => simp [joinC, tcomma]

/-! ## Comprehensions -/

/-- the class of a clause; for an `if` the tokens after the keyword -/
def ClauseG (ρ : It → Expr → Prop) (it : It) (as : List LTok) : Prop :=
  match it.1 with
  | .forClause .. => Gen as (.n (.forClause (openClause it.1))) (OE (ρ it))
  | .ifClause _ _ y => ∃ ln as' R1, as = W ln K.if_ b!"if" :: as' ∧ Gen as' (.n (.test 3 (openEnd y))) (OE R1) ∧ ∀ (p : Pos) y', p.line = ln → R1 y' → ρ it (.ifClause {} p y')
  | _ => False

theorem g_forClause {ρ : It → Expr → Prop} {c p v i x as1 as2 st} {l2 : Nat} (h1 : Gen as1 (.n .loopVars) (OE R1)) (h2 : Gen as2 (.n (.test 3 (openEnd x))) (OE R2))
    (hR : ∀ v' x' (p' i' : Pos), p'.line = ln → R1 v' → R2 x' → ρ (.forClause c p v i x, st) (.forClause {} p' v' i' x')) :
    ClauseG ρ (.forClause c p v i x, st) (W ln K.for_ b!"for" :: (as1 ++ W l2 K.in_ b!"in" :: as2)) := by
  show Gen _ (.n (.forClause (openEnd x))) _
  cases ho : openEnd x
  · rw [ho] at h2
    exact Gen.prod4 Fm.forClausefalse_144 (by decide) (gtok ln K.for_ b!"for") h1 (gtok l2 K.in_ b!"in") h2 (fun _ _ _ _ q1 q2 _ q4 => ⟨_, rfl, hR _ _ _ _ (q1.at (by decide)) q2 q4⟩)
  · rw [ho] at h2
    exact Gen.prod4 Fm.forClausetrue_144 (by decide) (gtok ln K.for_ b!"for") h1 (gtok l2 K.in_ b!"in") h2 (fun _ _ _ _ q1 q2 _ q4 => ⟨_, rfl, hR _ _ _ _ (q1.at (by decide)) q2 q4⟩)

/-- one `for` clause with its `if` clauses, the rest of the list starting with a `for` or empty -/
theorem g_clauses {ρ : It → Expr → Prop} {cl : List It} {ass} (h : All2 (ClauseG ρ) cl ass) (hf : forFirst (cl.map (·.1)) = true) (ha : clausesApart (cl.map (·.1)) = true) :
    Gen ass.flatten (.n .forClausesWithIfClausesOpt) (OL ρ cl) := by
  -- `full`: complete groups; `cur`: the group being read
  have close : ∀ (full : List It) (accF : List LTok) (cur : List It) (accC : List LTok) (o : Bool),
      (full = [] ∧ accF = [] ∨ full ≠ [] ∧ Gen accF (.n .forClausesWithIfClausesOpt) (OL ρ full)) → Gen accC (.n (.clauses o)) (OL ρ cur) →
      Gen (accF ++ accC) (.n .forClausesWithIfClausesOpt) (OL ρ (full ++ cur)) := by
    intro full accF cur accC o h hc
    rcases h with ⟨rfl, rfl⟩ | ⟨_, h⟩
    · cases o
      · exact Gen.prod1 Fm.forClausesWithIfClausesOpt_147 (by decide) hc (fun v q => ⟨v, rfl, q⟩)
      · exact Gen.prod1 Fm.forClausesWithIfClausesOpt_147_1 (by decide) hc (fun v q => ⟨v, rfl, q⟩)
    · cases o
      · exact Gen.prod2 Fm.forClausesWithIfClausesOpt_148 (by decide) h hc (fun v1 v2 q1 q2 => ⟨_, rfl, All2.append q1 q2⟩)
      · exact Gen.prod2 Fm.forClausesWithIfClausesOpt_148_1 (by decide) h hc (fun v1 v2 q1 q2 => ⟨_, rfl, All2.append q1 q2⟩)
  have start : ∀ (x : It) (a : List LTok), isIfClause x.1 = false → ClauseG ρ x a → Gen a (.n (.clauses (openClause x.1))) (OL ρ [x]) := by
    intro x a hx h
    unfold ClauseG at h
    split at h
    · cases ho : openClause x.1
      · rw [ho] at h
        exact Gen.prod1 Fm.clausesfalse_145 (by decide) h (fun v q => ⟨_, rfl, .cons _ _ _ _ q .nil⟩)
      · rw [ho] at h
        exact Gen.prod1 Fm.clausestrue_145 (by decide) h (fun v q => ⟨_, rfl, .cons _ _ _ _ q .nil⟩)
    · rename_i he; rw [he] at hx; cases hx
    · cases h
  have key : ∀ (cl : List It) (ass : List (List LTok)) (full : List It) (accF : List LTok) (cur : List It) (accC : List LTok) (y : It),
      All2 (ClauseG ρ) cl ass → clausesApart ((y :: cl).map (·.1)) = true →
      (full = [] ∧ accF = [] ∨ full ≠ [] ∧ Gen accF (.n .forClausesWithIfClausesOpt) (OL ρ full)) → Gen accC (.n (.clauses (openClause y.1))) (OL ρ cur) → cur ≠ [] →
      Gen (accF ++ accC ++ ass.flatten) (.n .forClausesWithIfClausesOpt) (OL ρ (full ++ cur ++ cl)) := by
    intro cl ass full accF cur accC y h
    induction h generalizing full accF cur accC y with
    | nil =>
      intro _ hf hc _
      have := close full accF cur accC _ hf hc
      simpa using this
    | cons x a cl ass hx _ ih =>
      intro hap hf hc hne
      have hap' : clausesApart ((x :: cl).map (·.1)) = true := by
        simp only [List.map_cons] at hap
        unfold clausesApart at hap
        simp only [Bool.and_eq_true] at hap
        exact hap.2
      cases hi : isIfClause x.1 with
      | false =>
        have := ih (full ++ cur) (accF ++ accC) [x] a x hap' (.inr ⟨by simp [hne], close _ _ _ _ _ hf hc⟩) (start x a hi hx) (by simp)
        simpa using this
      | true =>
        have hy : openClause y.1 = false := by
          simp only [List.map_cons] at hap
          unfold clausesApart at hap
          simp only [Bool.and_eq_true, Bool.not_eq_true', hi, Bool.and_true] at hap
          exact hap.1
        rw [hy] at hc
        obtain ⟨x, xst⟩ := x
        cases x <;> first | (cases hi) | skip
        rename_i c p z
        obtain ⟨ln, a', R1, rfl, hz, hρ⟩ := hx
        have h1 : Gen (accC ++ (W ln K.if_ b!"if" :: a')) (.n (.clauses (openEnd z))) (OL ρ (cur ++ [(.ifClause c p z, xst)])) := by
          cases ho : openEnd z
          · rw [ho] at hz
            exact Gen.prod3 Fm.clausesfalse_146 (by decide) hc (gtok ln K.if_ b!"if") hz (fun v1 v2 v3 q1 q2 q3 => ⟨_, rfl, All2.snoc q1 (hρ _ _ (q2.at (by decide)) q3)⟩)
          · rw [ho] at hz
            exact Gen.prod3 Fm.clausestrue_146 (by decide) hc (gtok ln K.if_ b!"if") hz (fun v1 v2 v3 q1 q2 q3 => ⟨_, rfl, All2.snoc q1 (hρ _ _ (q2.at (by decide)) q3)⟩)
        have := ih full accF (cur ++ [(.ifClause c p z, xst)]) _ (.ifClause c p z, xst) hap' hf h1 (by simp)
        simpa using this
  cases h with
  | nil => cases hf
  | cons x a cl ass hx h =>
    have hi : isIfClause x.1 = false := by
      obtain ⟨x, xst⟩ := x
      cases x <;> first | rfl | cases hf
    have := key cl ass [] [] [x] a x h ha (.inl ⟨rfl, rfl⟩) (start x a hi hx) (by simp)
    simpa using this

/-- a comprehension as the parser builds it -/
abbrev ComR (curly : Bool) (a z : Nat) (R1 : Expr → Prop) (ρ : It → Expr → Prop) (cl : List It) (R : Expr → Prop) : Prop :=
  ∀ (p e : Pos) b' cl', p.line = a → e.line = z → R1 b' → All2 ρ cl cl' → R (.compr {} curly p b' cl' (forceMultiLineCompr p b' cl' e) ⟨{}, e⟩)

theorem g_listCompr {ρ : It → Expr → Prop} {cl : List It} {as1 as2} (h1 : Gen as1 (.n (.any 2)) (OE R1)) (h2 : Gen as2 (.n .forClausesWithIfClausesOpt) (OL ρ cl))
    (hR : ComR false a z R1 ρ cl R) : Gen (W a 91 b!"[" :: ((as1 ++ as2) ++ [W z 93 b!"]"])) (.n .primary) (OE R) :=
  (Gen.prod4 Fm.primary_50 (by decide) (gtok a 91 b!"[") h1 h2 (gtok z 93 b!"]") (R := OE R)
    (fun _ _ _ _ q1 q2 q3 q4 => ⟨_, rfl, hR _ _ _ _ (q1.at (by decide)) (q4.at (by decide)) q2 q3⟩)).cast (by simp)

theorem g_dictCompr {ρ : It → Expr → Prop} {cl : List It} {as1 as2} (h1 : Gen as1 (.n .keyvalue) (OE R1)) (h2 : Gen as2 (.n .forClausesWithIfClausesOpt) (OL ρ cl))
    (hR : ComR true a z R1 ρ cl R) : Gen (W a 123 b!"{" :: ((as1 ++ as2) ++ [W z 125 b!"}"])) (.n .primary) (OE R) :=
  (Gen.prod4 Fm.primary_51 (by decide) (gtok a 123 b!"{") h1 h2 (gtok z 125 b!"}") (R := OE R)
    (fun _ _ _ _ q1 q2 q3 q4 => ⟨_, rfl, hR _ _ _ _ (q1.at (by decide)) (q4.at (by decide)) q2 q3⟩)).cast (by simp)

end

end Verif.Again
