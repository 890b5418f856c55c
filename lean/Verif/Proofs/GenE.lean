import Verif.Proofs.PrAdds
/-
Derivations of expressions.
-/
namespace Verif.Round
open Verif Verif.Syntax Verif.Lexer Verif.Print Verif.Grammar Verif.Parser

/-- the value is the expression `e` -/
def SE (e : Expr) (v : Val) : Prop := Same e v.expr
/-- the value is the list `l` -/
def SL (l : List Expr) (v : Val) : Prop := SameL l v.exprs

theorem SameL.snoc {l l' : List Expr} {x x' : Expr} (h : SameL l l') (hx : Same x x') : SameL (l ++ [x]) (l' ++ [x']) := by
  induction l generalizing l' with
  | nil => cases h; exact .cons _ _ _ _ hx .nil
  | cons a l ih => cases h with | cons _ a' _ l' h1 h2 => exact .cons _ _ _ _ h1 (ih h2)

theorem SameL.append {l l' m m' : List Expr} (h : SameL l l') (hm : SameL m m') : SameL (l ++ m) (l' ++ m') := by
  induction l generalizing l' with
  | nil => cases h; exact hm
  | cons a l ih => cases h with | cons _ a' _ l' h1 h2 => exact .cons _ _ _ _ h1 (ih h2)

theorem gtok (k : Kind) (t : Bytes) : Gen [W k t] (.t k) (TV (W k t)) := Gen.tok (W k t)

/-! ## Small classes -/

theorem g_ident (n : Bytes) : Gen [W K.ident n] (.n .ident) (fun v => ∃ n', v.expr = .ident n' ∧ n'.name = n) :=
  Gen.prod1 Fm.ident_139 (by decide) (gtok K.ident n) (fun v h => ⟨_, rfl, _, rfl, h.tok⟩)

theorem g_string (t v : Bytes) (tr : Bool) : Gen [⟨K.string, t, v, tr⟩] (.n .string) (fun val => ∃ n', val.expr = .string n' ∧ n'.value = v ∧ n'.triple = tr) :=
  Gen.prod1 Fm.string_138 (by decide) (Gen.tok ⟨K.string, t, v, tr⟩) (fun v h => ⟨_, rfl, _, rfl, h.str, h.triple⟩)

theorem g_commaOpt (tc : Bool) : Gen (tcomma tc) (.n .commaOpt) (fun _ => True) := by
  cases tc
  · exact Gen.prod0 Fm.commaOpt_124 (by decide) ⟨_, rfl, trivial⟩
  · exact Gen.prod1 Fm.commaOpt_125 (by decide) (gtok 44 b!",") (fun v _ => ⟨v, rfl, trivial⟩)

theorem g_commas : Gen [comma] (.n .commas) (fun v => v.pos.line ≠ 0) :=
  Gen.prod1 Fm.commas_126 (by decide) (gtok 44 b!",") (fun v h => ⟨v, rfl, h.line⟩)

theorem g_commasOpt (tc : Bool) : Gen (tcomma tc) (.n .commasOpt) (fun v => v.pos.line ≠ 0 ↔ tc = true) := by
  cases tc
  · exact Gen.prod0 Fm.commasOpt_128 (by decide) ⟨_, rfl, by simp⟩
  · exact Gen.prod1 Fm.commasOpt_129 (by decide) g_commas (fun v h => ⟨v, rfl, by simp [h]⟩)

/-! ## Lists -/

theorem l_tests : Lst (fun x as => Gen as (.n (.any 2)) (SE x)) (fun l as => Gen as (.n .tests) (SL l)) where
  one := fun x as h => Gen.prod1 Fm.tests_118 (by decide) h (fun v h => ⟨_, rfl, .cons _ _ _ _ h .nil⟩)
  snoc := fun l as x a _ hl hx => (Gen.prod3 Fm.tests_119 (by decide) hl g_commas hx (R := SL (l ++ [x])) (fun v1 v2 v3 h1 _ h3 => ⟨_, rfl, h1.snoc h3⟩)).cast (by simp)

theorem l_args : Lst (fun x as => Gen as (.n .argument) (SE x)) (fun l as => Gen as (.n .arguments) (SL l)) where
  one := fun x as h => (Gen.prod2 Fm.arguments_57 (by decide) (g_commasOpt false) h (R := SL [x]) (fun _ v _ h => ⟨_, rfl, .cons _ _ _ _ h .nil⟩)).cast (by simp [tcomma])
  snoc := fun l as x a _ hl hx => (Gen.prod3 Fm.arguments_58 (by decide) hl g_commas hx (R := SL (l ++ [x])) (fun v1 v2 v3 h1 _ h3 => ⟨_, rfl, h1.snoc h3⟩)).cast (by simp)

theorem l_kvs : Lst (fun x as => Gen as (.n .keyvalue) (SE x)) (fun l as => Gen as (.n .keyvaluesNoComma) (SL l)) where
  one := fun x as h => Gen.prod1 Fm.keyvaluesNoComma_131 (by decide) h (fun v h => ⟨_, rfl, .cons _ _ _ _ h .nil⟩)
  snoc := fun l as x a _ hl hx => (Gen.prod3 Fm.keyvaluesNoComma_132 (by decide) hl g_commas hx (R := SL (l ++ [x])) (fun v1 v2 v3 h1 _ h3 => ⟨_, rfl, h1.snoc h3⟩)).cast (by simp)

theorem l_params : Lst (fun x as => Gen as (.n .parameter) (SE x)) (fun l as => Gen as (.n .parameters) (SL l)) where
  one := fun x as h => Gen.prod1 Fm.parameters_71 (by decide) h (fun v h => ⟨_, rfl, .cons _ _ _ _ h .nil⟩)
  snoc := fun l as x a _ hl hx => (Gen.prod3 Fm.parameters_72 (by decide) hl (gtok 44 b!",") hx (R := SL (l ++ [x])) (fun v1 v2 v3 h1 _ h3 => ⟨_, rfl, h1.snoc h3⟩)).cast (by simp [comma])

theorem l_paramsT : Lst (fun x as => Gen as (.n .parameterType) (SE x)) (fun l as => Gen as (.n .parametersType) (SL l)) where
  one := fun x as h => Gen.prod1 Fm.parametersType_73 (by decide) h (fun v h => ⟨_, rfl, .cons _ _ _ _ h .nil⟩)
  snoc := fun l as x a _ hl hx => (Gen.prod3 Fm.parametersType_74 (by decide) hl (gtok 44 b!",") hx (R := SL (l ++ [x])) (fun v1 v2 v3 h1 _ h3 => ⟨_, rfl, h1.snoc h3⟩)).cast (by simp [comma])

/-- elements between brackets, with a trailing comma -/
theorem g_testsOpt {m l as} (h : SeqAll (fun x as => Gen as (.n (.any 2)) (SE x)) m l as) :
    Gen as (.n .testsOpt) (fun v => SL l v ∧ (v.comma.line = 0 → l.length = 1 → m ≠ .tuple) ∧ (v.comma.line ≠ 0 → m ≠ .paren)) := by
  obtain ⟨ass, tc, h1, rfl, h2, h3, h4⟩ := h
  by_cases hl : l = []
  · subst hl
    cases h1
    rw [h2 rfl]
    exact Gen.prod0 Fm.testsOpt_122 (by decide) ⟨_, rfl, .nil, fun _ h => by simp at h, fun h => absurd rfl h⟩
  · refine Gen.prod2 Fm.testsOpt_123 (by decide) (l_tests.join h1 hl) (g_commasOpt tc) (fun v1 v2 q1 q2 => ⟨_, rfl, q1, ?_, ?_⟩)
    · intro hc hlen hm
      exact (q2.2 (h4 hm hlen)) hc
    · intro hc hm
      have := q2.1 hc
      rw [h3 (.inl hm)] at this
      cases this

/-! ## Primary expressions -/

theorem g_list {l as st p e fm} (h : SeqAll (fun x as => Gen as (.n (.any 2)) (SE x)) .list l as) :
    Gen (W 91 b!"[" :: (as ++ [W 93 b!"]"])) (.n .primary) (SE (.list st p l e fm)) :=
  (Gen.prod3 Fm.primary_49 (by decide) (gtok 91 b!"[") (g_testsOpt h) (gtok 93 b!"]") (fun _ _ _ _ q _ => ⟨_, rfl, Same.list _ _ _ _ _ _ _ _ _ _ q.1⟩))

theorem g_set {l as st p e fm} (hl : l ≠ []) (h : SeqAll (fun x as => Gen as (.n (.any 2)) (SE x)) .list l as) :
    Gen (W 123 b!"{" :: (as ++ [W 125 b!"}"])) (.n .primary) (SE (.set st p l e fm)) := by
  obtain ⟨ass, tc, h1, rfl, _⟩ := h
  exact (Gen.prod4 Fm.primary_53 (by decide) (gtok 123 b!"{") (l_tests.join h1 hl) (g_commaOpt tc) (gtok 125 b!"}") (R := SE (.set st p l e fm))
    (fun _ _ _ _ _ q _ _ => ⟨_, rfl, Same.set _ _ _ _ _ _ _ _ _ _ q⟩)).cast (by simp)

theorem g_dict {l as st p e fm m} (h : SeqAll (fun x as => Gen as (.n .keyvalue) (SE x)) m l as) :
    Gen (W 123 b!"{" :: (as ++ [W 125 b!"}"])) (.n .primary) (SE (.dict st p l e fm)) := by
  obtain ⟨ass, tc, h1, rfl, h2, _⟩ := h
  have : Gen (joinC ass ++ tcomma tc) (.n .keyvalues) (SL l) := by
    by_cases hl : l = []
    · subst hl
      cases h1
      rw [h2 rfl]
      exact Gen.prod0 Fm.keyvalues_133 (by decide) ⟨_, rfl, .nil⟩
    · cases tc
      · exact (Gen.prod1 Fm.keyvalues_134 (by decide) (l_kvs.join h1 hl) (R := SL l) (fun v q => ⟨v, rfl, q⟩)).cast (by simp [tcomma])
      · exact Gen.prod2 Fm.keyvalues_135 (by decide) (l_kvs.join h1 hl) g_commas (fun v _ q _ => ⟨v, rfl, q⟩)
  exact Gen.prod3 Fm.primary_52 (by decide) (gtok 123 b!"{") this (gtok 125 b!"}") (fun _ _ _ _ q _ => ⟨_, rfl, Same.dict _ _ _ _ _ _ _ _ _ _ q⟩)

theorem sem54_tuple {v1 v2 v3 : Val} (h : v2.exprs.length = 1 → v2.comma.line ≠ 0) :
    ∃ v, sem 54 [v1, v2, v3] = some v ∧ ∃ fc fm, v.expr = .tuple {} false v1.pos v2.exprs ⟨{}, v3.pos⟩ fc fm := by
  have e : sem 54 [v1, v2, v3] = (match v2.exprs with
    | [x] =>
      if v2.comma.line = 0 then some { v1 with expr := .paren {} v1.pos x ⟨{}, v3.pos⟩ (forceMultiLine v1.pos [x] v3.pos) }
      else some { v1 with expr := .tuple {} false v1.pos [x] ⟨{}, v3.pos⟩ (forceCompact v1.pos [x] v3.pos) (forceMultiLine v1.pos [x] v3.pos) }
    | l => some { v1 with expr := .tuple {} false v1.pos l ⟨{}, v3.pos⟩ (forceCompact v1.pos l v3.pos) (forceMultiLine v1.pos l v3.pos) }) := rfl
  rw [e]
  match hx : v2.exprs with
  | [] => exact ⟨_, rfl, _, _, rfl⟩
  | [x] =>
    dsimp only
    rw [if_neg (h (by rw [hx]; rfl))]
    exact ⟨_, rfl, _, _, rfl⟩
  | x :: y :: l => exact ⟨_, rfl, _, _, rfl⟩

theorem SameL.length {l l' : List Expr} (h : SameL l l') : l.length = l'.length := by
  induction l generalizing l' with
  | nil => cases h; rfl
  | cons a l ih => cases h with | cons _ a' _ l' h1 h2 => simp [ih h2]

theorem g_tuple {l as st p e fc fm} (h : SeqAll (fun x as => Gen as (.n (.any 2)) (SE x)) .tuple l as) :
    Gen (W 40 b!"(" :: (as ++ [W 41 b!")"])) (.n .primary) (SE (.tuple st false p l e fc fm)) := by
  refine Gen.prod3 Fm.primary_54 (by decide) (gtok 40 b!"(") (g_testsOpt h) (gtok 41 b!")") (fun v1 v2 v3 _ q _ => ?_)
  obtain ⟨v, e1, fc, fm, e2⟩ := sem54_tuple (v1 := v1) (v2 := v2) (v3 := v3) (fun hl hc => by
    refine q.2.1 hc ?_ rfl
    rw [q.1.length]; exact hl)
  exact ⟨v, e1, by unfold SE; rw [e2]; exact Same.tuple _ _ _ _ _ _ _ _ _ _ _ _ _ q.1⟩

theorem sem54_paren {v1 v2 v3 : Val} {x : Expr} (h : v2.exprs = [x]) (hc : v2.comma.line = 0) :
    ∃ v, sem 54 [v1, v2, v3] = some v ∧ ∃ fm, v.expr = .paren {} v1.pos x ⟨{}, v3.pos⟩ fm := by
  have e : sem 54 [v1, v2, v3] = (match v2.exprs with
    | [x] =>
      if v2.comma.line = 0 then some { v1 with expr := .paren {} v1.pos x ⟨{}, v3.pos⟩ (forceMultiLine v1.pos [x] v3.pos) }
      else some { v1 with expr := .tuple {} false v1.pos [x] ⟨{}, v3.pos⟩ (forceCompact v1.pos [x] v3.pos) (forceMultiLine v1.pos [x] v3.pos) }
    | l => some { v1 with expr := .tuple {} false v1.pos l ⟨{}, v3.pos⟩ (forceCompact v1.pos l v3.pos) (forceMultiLine v1.pos l v3.pos) }) := rfl
  rw [e, h]
  dsimp only
  rw [if_pos hc]
  exact ⟨_, rfl, _, rfl⟩

theorem g_paren {x as} (h : SeqAll (fun x as => Gen as (.n (.any 2)) (SE x)) .paren [x] as) :
    Gen (W 40 b!"(" :: (as ++ [W 41 b!")"])) (.n .primary) (fun v => ∃ c p x' e fm, v.expr = .paren c p x' e fm ∧ Same x x') := by
  refine Gen.prod3 Fm.primary_54 (by decide) (gtok 40 b!"(") (g_testsOpt h) (gtok 41 b!")") (fun v1 v2 v3 _ q _ => ?_)
  obtain ⟨x', e, hs⟩ : ∃ x', v2.exprs = [x'] ∧ Same x x' := by
    obtain ⟨q, _⟩ := q
    unfold SL at q
    generalize v2.exprs = l at q
    cases q with
    | cons _ x' _ l' h1 h2 => cases h2; exact ⟨x', rfl, h1⟩
  have hc : v2.comma.line = 0 := by
    by_cases hc : v2.comma.line = 0
    · exact hc
    · exact absurd rfl (q.2.2 hc)
  obtain ⟨v, e1, fm, e2⟩ := sem54_paren (v1 := v1) (v3 := v3) e hc
  exact ⟨v, e1, _, _, x', _, _, e2, hs⟩

/-- an expression in parentheses -/
theorem g_added {e as} (h : Gen as (.n (.any 2)) (SE e)) : Gen (W 40 b!"(" :: (as ++ [W 41 b!")"])) (.n .primary) (SE e) := by
  have hseq : Gen as (.n .testsOpt) (fun v => SL [e] v ∧ v.comma.line = 0) := by
    have := Gen.prod2 Fm.testsOpt_123 (by decide) (l_tests.one _ _ h) (g_commasOpt false) (R := fun v => SL [e] v ∧ v.comma.line = 0)
      (fun v1 v2 q1 q2 => ⟨_, rfl, q1, by show v2.pos.line = 0; simpa using q2⟩)
    exact this.cast (by simp [tcomma])
  refine Gen.prod3 Fm.primary_54 (by decide) (gtok 40 b!"(") hseq (gtok 41 b!")") (fun v1 v2 v3 _ q _ => ?_)
  obtain ⟨x', e', hs⟩ : ∃ x', v2.exprs = [x'] ∧ Same e x' := by
    obtain ⟨q, _⟩ := q
    unfold SL at q
    generalize v2.exprs = l at q
    cases q with
    | cons _ x' _ l' h1 h2 => cases h2; exact ⟨x', rfl, h1⟩
  obtain ⟨v, e1, fm, e2⟩ := sem54_paren (v1 := v1) (v3 := v3) e' q.2
  exact ⟨v, e1, by unfold SE; rw [e2]; exact Same.added _ _ _ _ _ _ hs⟩

theorem g_name {n : IdentN} : Gen [W K.ident n.name] (.n .primary) (SE (.ident n)) :=
  Gen.prod1 Fm.primary_40 (by decide) (g_ident n.name) (fun v ⟨n', e, h⟩ => ⟨v, rfl, by unfold SE; rw [e]; exact Same.ident _ _ h.symm⟩)

theorem g_str {n : StringN} {t : Bytes} : Gen [⟨K.string, t, n.value, n.triple⟩] (.n .primary) (SE (.string n)) :=
  Gen.prod1 Fm.primary_42 (by decide) (g_string t n.value n.triple) (fun v ⟨n', e, h1, h2⟩ => ⟨v, rfl, by unfold SE; rw [e]; exact Same.string _ _ h1.symm h2.symm⟩)

theorem g_int {c p t} : Gen [W K.int t] (.n .primaryInt) (SE (.literal c p t)) :=
  Gen.prod1 Fm.primaryInt_41 (by decide) (Gen.prod1 Fm.numberInt_143 (by decide) (gtok K.int t) (R := SE (.literal c p t))
    (fun v h => ⟨_, rfl, by
      show Same _ (.literal {} v.pos v.tok)
      rw [h.tok]; exact Same.literal ..⟩)) (fun v h => ⟨v, rfl, h⟩)

theorem g_float2 {c p} {a b : Bytes} : Gen [W K.int a, W 46 b!".", W K.int b] (.n .primary) (SE (.literal c p (a ++ b!"." ++ b))) :=
  Gen.prod1 Fm.primary_41 (by decide) (Gen.prod3 Fm.number_140 (by decide) (gtok K.int a) (gtok 46 b!".") (gtok K.int b) (R := SE (.literal c p (a ++ b!"." ++ b)))
    (fun v1 v2 v3 h1 h2 h3 => ⟨_, rfl, by
      show Same _ (.literal {} v1.pos (v1.tok ++ b!"." ++ v3.tok))
      rw [h1.tok, h3.tok]; exact Same.literal ..⟩)) (fun v h => ⟨v, rfl, h⟩)

theorem g_float1 {c p} {a : Bytes} : Gen [W K.int a, W 46 b!"."] (.n .primary) (SE (.literal c p (a ++ b!"."))) :=
  Gen.prod1 Fm.primary_41 (by decide) (Gen.prod2 Fm.number_141 (by decide) (gtok K.int a) (gtok 46 b!".") (R := SE (.literal c p (a ++ b!".")))
    (fun v1 v2 h1 h2 => ⟨_, rfl, by
      show Same _ (.literal {} v1.pos (v1.tok ++ b!"."))
      rw [h1.tok]; exact Same.literal ..⟩)) (fun v h => ⟨v, rfl, h⟩)

theorem g_float0 {c p} {b : Bytes} : Gen [W 46 b!".", W K.int b] (.n .primary) (SE (.literal c p (b!"." ++ b))) :=
  Gen.prod1 Fm.primary_41 (by decide) (Gen.prod2 Fm.number_142 (by decide) (gtok 46 b!".") (gtok K.int b) (R := SE (.literal c p (b!"." ++ b)))
    (fun v1 v2 h1 h2 => ⟨_, rfl, by
      show Same _ (.literal {} v1.pos (b!"." ++ v2.tok))
      rw [h2.tok]; exact Same.literal ..⟩)) (fun v h => ⟨v, rfl, h⟩)

theorem g_dot {c x dp np name as} (h : Gen as (.n .primary) (SE x)) :
    Gen (as ++ [W 46 b!".", W K.ident name]) (.n .primary) (SE (.dot c x dp np name)) :=
  Gen.prod3 Fm.primary_43 (by decide) h (gtok 46 b!".") (gtok K.ident name) (fun v1 v2 v3 h1 h2 h3 => ⟨_, rfl, by
    show Same _ (.dot {} v1.expr v2.pos v3.pos v3.tok)
    rw [h3.tok]; exact Same.dot _ _ _ _ _ _ _ _ _ h1⟩)

theorem g_call {c x ls l e fc fm as1 as} (hx : Gen as1 (.n .primaryExpr) (SE x)) (h : SeqAll (fun x as => Gen as (.n .argument) (SE x)) .call l as) :
    Gen (as1 ++ W 40 b!"(" :: (as ++ [W 41 b!")"])) (.n .primary) (SE (.call c x ls l e fc fm)) := by
  obtain ⟨ass, tc, h1, rfl, h2, _⟩ := h
  have : Gen (joinC ass ++ tcomma tc) (.n .argumentsOpt) (SL l) := by
    by_cases hl : l = []
    · subst hl
      cases h1
      rw [h2 rfl]
      exact Gen.prod0 Fm.argumentsOpt_55 (by decide) ⟨_, rfl, .nil⟩
    · exact Gen.prod2 Fm.argumentsOpt_56 (by decide) (l_args.join h1 hl) (g_commasOpt tc) (fun v _ q _ => ⟨v, rfl, q⟩)
  exact Gen.prod4 Fm.primary_45 (by decide) hx (gtok 40 b!"(") this (gtok 41 b!")") (fun _ _ _ _ q1 _ q3 _ => ⟨_, rfl, Same.call _ _ _ _ _ _ _ _ _ _ _ _ _ _ q1 q3⟩)

theorem g_index {c x p y e as1 as2} (hx : Gen as1 (.n .primaryExpr) (SE x)) (hy : Gen as2 (.n .expr) (SE y)) :
    Gen (as1 ++ W 91 b!"[" :: (as2 ++ [W 93 b!"]"])) (.n .primary) (SE (.index c x p y e)) :=
  Gen.prod4 Fm.primary_46 (by decide) hx (gtok 91 b!"[") hy (gtok 93 b!"]") (fun _ _ _ _ q1 _ q3 _ => ⟨_, rfl, Same.index _ _ _ _ _ _ _ _ _ _ q1 q3⟩)

theorem g_slice1 {c x p y c1 z c2 e as1 as2 as3} (hc : c2.byte = 0) (hx : Gen as1 (.n .primaryExpr) (SE x)) (hy : Gen as2 (.n .exprOpt) (SE y)) (hz : Gen as3 (.n .testOpt) (SE z)) :
    Gen (as1 ++ W 91 b!"[" :: (as2 ++ W 58 b!":" :: (as3 ++ [W 93 b!"]"]))) (.n .primary) (SE (.slice c x p y c1 z c2 .nil e)) :=
  Gen.prod6 Fm.primary_47 (by decide) hx (gtok 91 b!"[") hy (gtok 58 b!":") hz (gtok 93 b!"]") (fun _ _ _ _ _ _ q1 _ q3 _ q5 _ =>
    ⟨_, rfl, Same.slice _ _ _ _ _ _ _ _ _ _ _ _ _ _ _ _ _ _ q1 q3 q5 .nil (by simp [hc])⟩)

theorem g_slice2 {c x p y c1 z c2 w e as1 as2 as3 as4} (hc : c2.byte ≠ 0) (hx : Gen as1 (.n .primaryExpr) (SE x)) (hy : Gen as2 (.n .exprOpt) (SE y))
    (hz : Gen as3 (.n .testOpt) (SE z)) (hw : Gen as4 (.n .testOpt) (SE w)) :
    Gen (as1 ++ W 91 b!"[" :: (as2 ++ W 58 b!":" :: (as3 ++ W 58 b!":" :: (as4 ++ [W 93 b!"]"])))) (.n .primary) (SE (.slice c x p y c1 z c2 w e)) :=
  Gen.prod8 Fm.primary_48 (by decide) hx (gtok 91 b!"[") hy (gtok 58 b!":") hz (gtok 58 b!":") hw (gtok 93 b!"]") (fun _ _ _ _ _ v6 _ _ q1 _ q3 _ q5 q6 q7 _ =>
    ⟨_, rfl, Same.slice _ _ _ _ _ _ _ _ _ _ _ _ _ _ _ _ _ _ q1 q3 q5 q7 (by
      have : v6.pos.byte ≠ 0 := q6.byte rfl
      simp [hc, this])⟩)

/-! ## Operators -/

/-- the kind of a unary operator -/
def unKind (op : Bytes) : Kind := if op = b!"not" then K.not else (op.headD 0).toNat

/-- a sign before an operand -/
theorem g_unary {c p op x as} (hop : op ∈ unOps) (h : Gen as (.n .primaryExpr) (SE x)) :
    Gen (W (unKind op) op :: as) (.n (.test 13 false)) (SE (.unary c p op x)) := by
  have h' := primExpr_up h
  have key : ∀ (k : Kind) (r : Nat) (_ : (FNT.test 13 false, r, [FSym.t k, .n (.test 13 false)]) ∈ fine) (_ : r ≠ 0)
      (_ : ∀ v1 v2, sem r [v1, v2] = some { v1 with expr := mkUnary v1.pos v1.tok v2.expr }),
      Gen (W k op :: as) (.n (.test 13 false)) (SE (.unary c p op x)) := by
    intro k r hm hr hs
    exact Gen.prod2 hm hr (gtok k op) h' (fun v1 v2 q1 q2 => ⟨_, hs v1 v2, by
      show Same _ (.unary {} v1.pos v1.tok v2.expr)
      rw [q1.tok]; exact Same.unary _ _ _ _ _ _ _ q2⟩)
  simp only [unOps, List.mem_cons, List.not_mem_nil, or_false] at hop
  rcases hop with rfl | rfl | rfl | rfl
  · exact (key _ 91 Fm.test13false_91 (by decide) (fun _ _ => rfl))
  · exact (key _ 92 Fm.test13false_92 (by decide) (fun _ _ => rfl))
  · exact (key _ 93 Fm.test13false_93 (by decide) (fun _ _ => rfl))
  · exact (key _ 94 Fm.test13false_94 (by decide) (fun _ _ => rfl))

/-- the kind of an operator of one token -/
def opKind (op : Bytes) : Kind :=
  if op = b!"or" then K.or else if op = b!"and" then K.and else if op = b!"in" then K.in_ else if op = b!"is" then K.is
  else if op = b!"==" then K.eq else if op = b!"<=" then K.le else if op = b!"!=" then K.ne else if op = b!">=" then K.ge
  else if op = b!"<<" then K.lsh else if op = b!">>" then K.rsh else if op = b!"//" then K.intDiv
  else if op.length = 1 then (op.headD 0).toNat else K.augm

/-- the tokens of a binary operator -/
def opToks (op : Bytes) : List ATok :=
  if op = b!"not in" then [W K.not b!"not", W K.in_ b!"in"]
  else if op = b!"is not" then [W K.is b!"is", W K.not b!"not"]
  else [W (opKind op) op]

theorem g_binary {c x p op lb y as1 as2} (hop : op ∈ binOps) (hx : Gen as1 (.n (.test (opPrec op) false)) (SE x))
    (hy : Gen as2 (.n (.test (opPrec op + 1) false)) (SE y)) :
    Gen (as1 ++ (opToks op ++ as2)) (.n (.test (opPrec op) false)) (SE (.binary c x p op lb y)) := by
  have key : ∀ (q : Nat) (k : Kind) (r : Nat) (_ : opPrec op = q) (_ : (FNT.test q false, r, [.n (.test q false), FSym.t k, .n (.test (q + 1) false)]) ∈ fine) (_ : r ≠ 0)
      (_ : ∀ v1 v2 v3, sem r [v1, v2, v3] = some { v1 with expr := mkBinary v1.expr v2.pos v2.tok v3.expr }) (_ : isAssignOp op = false),
      Gen (as1 ++ ([W k op] ++ as2)) (.n (.test (opPrec op) false)) (SE (.binary c x p op lb y)) := by
    intro q k r hq hm hr hs ha
    rw [hq] at hx hy ⊢
    refine Gen.prod3 hm hr hx (gtok k op) hy (fun v1 v2 v3 q1 q2 q3 => ⟨_, hs v1 v2 v3, ?_⟩)
    show Same _ (mkBinary v1.expr v2.pos v2.tok v3.expr)
    rw [show v2.tok = op from q2.tok]
    unfold mkBinary
    rw [if_neg (by rw [ha]; decide)]
    exact Same.binary _ _ _ _ _ _ _ _ _ _ _ q1 q3
  simp only [binOps, List.mem_cons, List.not_mem_nil, or_false] at hop
  rcases hop with rfl | rfl | rfl | rfl | rfl | rfl | rfl | rfl | rfl | rfl | rfl | rfl | rfl | rfl | rfl | rfl | rfl | rfl | rfl | rfl | rfl
  · exact key 4 _ 109 (by decide) Fm.test4false_109 (by decide) (fun _ _ _ => rfl) (by decide)
  · exact key 5 _ 110 (by decide) Fm.test5false_110 (by decide) (fun _ _ _ => rfl) (by decide)
  · exact key 6 _ 101 (by decide) Fm.test6false_101 (by decide) (fun _ _ _ => rfl) (by decide)
  · exact key 6 _ 102 (by decide) Fm.test6false_102 (by decide) (fun _ _ _ => rfl) (by decide)
  · exact key 6 _ 103 (by decide) Fm.test6false_103 (by decide) (fun _ _ _ => rfl) (by decide)
  · exact key 6 _ 104 (by decide) Fm.test6false_104 (by decide) (fun _ _ _ => rfl) (by decide)
  · exact key 6 _ 105 (by decide) Fm.test6false_105 (by decide) (fun _ _ _ => rfl) (by decide)
  · exact key 6 _ 106 (by decide) Fm.test6false_106 (by decide) (fun _ _ _ => rfl) (by decide)
  · exact key 6 _ 107 (by decide) Fm.test6false_107 (by decide) (fun _ _ _ => rfl) (by decide)
  · have hp : opPrec b!"not in" = 6 := by decide
    rw [hp] at hx hy ⊢
    refine Gen.prod4 Fm.test6false_108 (by decide) hx (gtok K.not b!"not") (gtok K.in_ b!"in") hy (fun v1 v2 v3 v4 q1 q2 q3 q4 => ⟨_, rfl, ?_⟩)
    show Same _ (mkBinary v1.expr v2.pos b!"not in" v4.expr)
    exact Same.binary _ _ _ _ _ _ _ _ _ _ _ q1 q4
  · exact key 7 _ 111 (by decide) Fm.test7false_111 (by decide) (fun _ _ _ => rfl) (by decide)
  · exact key 8 _ 113 (by decide) Fm.test8false_113 (by decide) (fun _ _ _ => rfl) (by decide)
  · exact key 9 _ 112 (by decide) Fm.test9false_112 (by decide) (fun _ _ _ => rfl) (by decide)
  · exact key 10 _ 114 (by decide) Fm.test10false_114 (by decide) (fun _ _ _ => rfl) (by decide)
  · exact key 10 _ 115 (by decide) Fm.test10false_115 (by decide) (fun _ _ _ => rfl) (by decide)
  · exact key 11 _ 99 (by decide) Fm.test11false_99 (by decide) (fun _ _ _ => rfl) (by decide)
  · exact key 11 _ 100 (by decide) Fm.test11false_100 (by decide) (fun _ _ _ => rfl) (by decide)
  · exact key 12 _ 95 (by decide) Fm.test12false_95 (by decide) (fun _ _ _ => rfl) (by decide)
  · exact key 12 _ 96 (by decide) Fm.test12false_96 (by decide) (fun _ _ _ => rfl) (by decide)
  · exact key 12 _ 97 (by decide) Fm.test12false_97 (by decide) (fun _ _ _ => rfl) (by decide)
  · exact key 12 _ 98 (by decide) Fm.test12false_98 (by decide) (fun _ _ _ => rfl) (by decide)

theorem same_not {e v : Expr} (h : Same e v) (hn : isNot e = false) : isNot v = false := by
  cases h <;> first | rfl | exact hn

theorem sem116_is {v1 v2 v3 : Val} (h : isNot v3.expr = false) : ∃ v, sem 116 [v1, v2, v3] = some v ∧ v.expr = mkBinary v1.expr v2.pos v2.tok v3.expr := by
  show ∃ v, semTest 116 v1 v2 v3 {} {} = some v ∧ _
  unfold semTest
  rw [if_neg (by decide), if_neg (by decide), if_neg (by decide), if_neg (by decide), if_pos (by decide)]
  cases hx : v3.expr <;> try exact ⟨_, rfl, rfl⟩
  rename_i c o op x
  rw [hx] at h
  simp only [isNot, beq_eq_false_iff_ne] at h
  simp only
  rw [if_neg h]
  exact ⟨_, rfl, rfl⟩

theorem sem116_isNot {v1 v2 v3 : Val} {c p x} (h : v3.expr = .unary c p b!"not" x) :
    ∃ v, sem 116 [v1, v2, v3] = some v ∧ v.expr = mkBinary v1.expr v2.pos b!"is not" x := by
  show ∃ v, semTest 116 v1 v2 v3 {} {} = some v ∧ _
  unfold semTest
  rw [if_neg (by decide), if_neg (by decide), if_neg (by decide), if_neg (by decide), if_pos (by decide), h]
  exact ⟨_, rfl, rfl⟩

theorem g_is {c x p lb y as1 as2 o} (hn : isNot y = false) (hx : Gen as1 (.n (.test 3 false)) (SE x)) (hy : Gen as2 (.n (.test 4 o)) (SE y)) :
    Gen (as1 ++ (opToks b!"is" ++ as2)) (.n (.test 3 o)) (SE (.binary c x p b!"is" lb y)) := by
  have hs : ∀ v1 v2 v3, SE x v1 → TV (W K.is b!"is") v2 → SE y v3 → ∃ v, sem 116 [v1, v2, v3] = some v ∧ SE (.binary c x p b!"is" lb y) v := by
    intro v1 v2 v3 q1 q2 q3
    obtain ⟨v, e1, e2⟩ := sem116_is (v1 := v1) (v2 := v2) (v3 := v3) (same_not q3 hn)
    refine ⟨v, e1, ?_⟩
    unfold SE
    rw [e2, q2.tok]
    exact Same.binary _ _ _ _ _ _ _ _ _ _ _ q1 q3
  cases o
  · exact Gen.prod3 Fm.test3false_116 (by decide) hx (gtok K.is b!"is") hy hs
  · exact Gen.prod3 Fm.test3true_116 (by decide) hx (gtok K.is b!"is") hy hs

theorem g_isNot {c x p lb y as1 as2 o} (hx : Gen as1 (.n (.test 3 false)) (SE x)) (hy : Gen as2 (.n (.test 13 o)) (SE y)) :
    Gen (as1 ++ (opToks b!"is not" ++ as2)) (.n (.test 3 o)) (SE (.binary c x p b!"is not" lb y)) := by
  have hn : Gen (W K.not b!"not" :: as2) (.n (.test 13 o)) (fun v => ∃ p y', v.expr = .unary {} p b!"not" y' ∧ Same y y') := by
    cases o
    · exact Gen.prod2 Fm.test13false_91 (by decide) (gtok K.not b!"not") hy (fun v1 v2 q1 q2 => ⟨_, rfl, _, _, by
        show mkUnary v1.pos v1.tok v2.expr = _
        rw [q1.tok]; rfl, q2⟩)
    · exact Gen.prod2 Fm.test13true_91 (by decide) (gtok K.not b!"not") hy (fun v1 v2 q1 q2 => ⟨_, rfl, _, _, by
        show mkUnary v1.pos v1.tok v2.expr = _
        rw [q1.tok]; rfl, q2⟩)
  have hn4 := test_up (p := 4) (by omega) (by omega) (by omega) hn
  have hs : ∀ v1 v2 v3, SE x v1 → TV (W K.is b!"is") v2 → (∃ p y', v3.expr = .unary {} p b!"not" y' ∧ Same y y') →
      ∃ v, sem 116 [v1, v2, v3] = some v ∧ SE (.binary c x p b!"is not" lb y) v := by
    rintro v1 v2 v3 q1 q2 ⟨p', y', e3, q3⟩
    obtain ⟨v, e1, e2⟩ := sem116_isNot (v1 := v1) (v2 := v2) (v3 := v3) e3
    refine ⟨v, e1, ?_⟩
    unfold SE
    rw [e2]
    exact Same.binary _ _ _ _ _ _ _ _ _ _ _ q1 q3
  cases o
  · exact (Gen.prod3 Fm.test3false_116 (by decide) hx (gtok K.is b!"is") hn4 hs :)
  · exact (Gen.prod3 Fm.test3true_116 (by decide) hx (gtok K.is b!"is") hn4 hs :)

theorem g_cond {c t i te el e as1 as2 as3} (h1 : Gen as1 (.n (.test 2 false)) (SE t)) (h2 : Gen as2 (.n (.any 2)) (SE te)) (h3 : Gen as3 (.n (.test 3 false)) (SE e)) :
    Gen (as1 ++ W K.if_ b!"if" :: (as2 ++ W K.else_ b!"else" :: as3)) (.n (.test 2 false)) (SE (.cond c t i te el e)) :=
  Gen.prod5 Fm.test2false_117 (by decide) h1 (gtok K.if_ _) h2 (gtok K.else_ _) h3 (fun _ _ _ _ _ q1 _ q3 _ q5 =>
    ⟨_, rfl, Same.cond _ _ _ _ _ _ _ _ _ _ _ _ q1 q3 q5⟩)

theorem g_lambda {c p ps b ass as2} (h1 : All2 (fun x as => Gen as (.n .parameter) (SE x)) ps ass) (h2 : Gen as2 (.n (.any 2)) (SE b)) :
    Gen (W K.lambda b!"lambda" :: (joinC ass ++ W 58 b!":" :: as2)) (.n (.test 13 true)) (SE (.lambda c p ps [b])) := by
  have hp : Gen (joinC ass) (.n .parametersOpt) (SL ps) := by
    by_cases hl : ps = []
    · subst hl
      cases h1
      exact Gen.prod0 Fm.parametersOpt_67 (by decide) ⟨_, rfl, .nil⟩
    · exact (Gen.prod2 Fm.parametersOpt_68 (by decide) (l_params.join h1 hl) (g_commaOpt false) (R := SL ps) (fun v _ q _ => ⟨v, rfl, q⟩)).cast (by simp [tcomma])
  have hb : Gen as2 (.n .lambdaBody) (SE b) := Gen.prod1 Fm.lambdaBody_85 (by decide) h2 (fun v q => ⟨v, rfl, q⟩)
  exact Gen.prod4 Fm.test13true_90 (by decide) (gtok K.lambda _) hp (gtok 58 b!":") hb (fun _ _ _ _ _ q2 _ q4 => ⟨_, rfl, Same.lambda _ _ _ _ _ _ _ _ q2 (.cons _ _ _ _ q4 .nil)⟩)

/-! ## Arguments, parameters -/

theorem g_argNamed {c n p lb y as} (h : Gen as (.n (.any 2)) (SE y)) :
    Gen (W K.ident n.name :: (W 61 b!"=" :: as)) (.n .argument) (SE (.assign c (.ident n) p b!"=" lb y)) :=
  Gen.prod3 Fm.argument_60 (by decide) (g_ident n.name) (gtok 61 b!"=") h (fun v1 v2 v3 ⟨n', e1, q1⟩ q2 q3 => ⟨_, rfl, by
    show Same _ (mkBinary v1.expr v2.pos v2.tok v3.expr)
    rw [q2.tok, e1]
    exact Same.assign _ _ _ _ _ _ _ _ _ _ _ (Same.ident _ _ q1.symm) q3⟩)

theorem g_argStar {c p x as} (h : Gen as (.n (.any 2)) (SE x)) : Gen (W 42 b!"*" :: as) (.n .argument) (SE (.unary c p b!"*" x)) :=
  Gen.prod2 Fm.argument_61 (by decide) (gtok 42 b!"*") h (fun v1 v2 q1 q2 => ⟨_, rfl, by
    show Same _ (.unary {} v1.pos v1.tok v2.expr)
    rw [q1.tok]; exact Same.unary _ _ _ _ _ _ _ q2⟩)

theorem g_argStarStar {c p x as} (h : Gen as (.n (.any 2)) (SE x)) : Gen (W K.starStar b!"**" :: as) (.n .argument) (SE (.unary c p b!"**" x)) :=
  Gen.prod2 Fm.argument_62 (by decide) (gtok K.starStar b!"**") h (fun v1 v2 q1 q2 => ⟨_, rfl, by
    show Same _ (.unary {} v1.pos v1.tok v2.expr)
    rw [q1.tok]; exact Same.unary _ _ _ _ _ _ _ q2⟩)

theorem g_arg {x as} (h : Gen as (.n (.any 2)) (SE x)) : Gen as (.n .argument) (SE x) := Gen.prod1 Fm.argument_59 (by decide) h (fun v q => ⟨v, rfl, q⟩)

theorem g_param {n : IdentN} : Gen [W K.ident n.name] (.n .parameter) (SE (.ident n)) :=
  Gen.prod1 Fm.parameter_75 (by decide) (g_ident n.name) (fun v ⟨n', e, q⟩ => ⟨v, rfl, by unfold SE; rw [e]; exact Same.ident _ _ q.symm⟩)

theorem g_paramDefault {c n p lb y as} (h : Gen as (.n (.any 2)) (SE y)) :
    Gen (W K.ident n.name :: (W 61 b!"=" :: as)) (.n .parameter) (SE (.assign c (.ident n) p b!"=" lb y)) :=
  Gen.prod3 Fm.parameter_76 (by decide) (g_ident n.name) (gtok 61 b!"=") h (fun v1 v2 v3 ⟨n', e1, q1⟩ q2 q3 => ⟨_, rfl, by
    show Same _ (mkBinary v1.expr v2.pos v2.tok v3.expr)
    rw [q2.tok, e1]
    exact Same.assign _ _ _ _ _ _ _ _ _ _ _ (Same.ident _ _ q1.symm) q3⟩)

theorem g_paramBare {c p} : Gen [W 42 b!"*"] (.n .parameter) (SE (.unary c p b!"*" .nil)) :=
  Gen.prod1 Fm.parameter_78 (by decide) (gtok 42 b!"*") (fun v1 q1 => ⟨_, rfl, by
    show Same _ (.unary {} v1.pos v1.tok .nil)
    rw [q1.tok]; exact Same.unary _ _ _ _ _ _ _ .nil⟩)

theorem g_paramStar {c p} {n : IdentN} : Gen [W 42 b!"*", W K.ident n.name] (.n .parameter) (SE (.unary c p b!"*" (.ident n))) :=
  Gen.prod2 Fm.parameter_77 (by decide) (gtok 42 b!"*") (g_ident n.name) (fun v1 v2 q1 ⟨n', e, q⟩ => ⟨_, rfl, by
    show Same _ (.unary {} v1.pos v1.tok v2.expr)
    rw [q1.tok, e]; exact Same.unary _ _ _ _ _ _ _ (Same.ident _ _ q.symm)⟩)

theorem g_paramStarStar {c p} {n : IdentN} : Gen [W K.starStar b!"**", W K.ident n.name] (.n .parameter) (SE (.unary c p b!"**" (.ident n))) :=
  Gen.prod2 Fm.parameter_79 (by decide) (gtok K.starStar b!"**") (g_ident n.name) (fun v1 v2 q1 ⟨n', e, q⟩ => ⟨_, rfl, by
    show Same _ (.unary {} v1.pos v1.tok v2.expr)
    rw [q1.tok, e]; exact Same.unary _ _ _ _ _ _ _ (Same.ident _ _ q.symm)⟩)

theorem g_paramT {x as} (h : Gen as (.n .parameter) (SE x)) : Gen as (.n .parameterType) (SE x) :=
  Gen.prod1 Fm.parameterType_80 (by decide) h (fun v q => ⟨v, rfl, q⟩)

theorem same_typed {c} {n : IdentN} {t : Expr} {v : Val} {n' : IdentN} {t' : Expr} (e : v.expr = .ident n') (q : n'.name = n.name) (ht : Same t t') :
    Same (.typedIdent c n t) (mkTyped v.expr t') := by
  rw [e]; exact Same.typedIdent _ _ _ _ _ _ q.symm ht

theorem g_typed {c n t as} (h : Gen as (.n (.any 2)) (SE t)) : Gen (W K.ident n.name :: (W 58 b!":" :: as)) (.n .parameterType) (SE (.typedIdent c n t)) :=
  Gen.prod3 Fm.parameterType_81 (by decide) (g_ident n.name) (gtok 58 b!":") h (fun v1 v2 v3 ⟨n', e, q⟩ q2 q3 => ⟨_, rfl, same_typed e q q3⟩)

theorem g_typedDefault {c n t p lb y as1 as2 c'} (h : Gen as1 (.n (.any 2)) (SE t)) (h2 : Gen as2 (.n (.any 2)) (SE y)) :
    Gen (W K.ident n.name :: (W 58 b!":" :: (as1 ++ (W 61 b!"=" :: as2)))) (.n .parameterType) (SE (.assign c (.typedIdent c' n t) p b!"=" lb y)) :=
  Gen.prod5 Fm.parameterType_82 (by decide) (g_ident n.name) (gtok 58 b!":") h (gtok 61 b!"=") h2 (fun v1 v2 v3 v4 v5 ⟨n', e, q⟩ q2 q3 q4 q5 => ⟨_, rfl, by
    show Same _ (mkBinary (mkTyped v1.expr v3.expr) v4.pos v4.tok v5.expr)
    rw [q4.tok]
    exact Same.assign _ _ _ _ _ _ _ _ _ _ _ (same_typed e q q3) q5⟩)

theorem g_typedStar {c p n t as c'} (h : Gen as (.n (.any 2)) (SE t)) :
    Gen (W 42 b!"*" :: (W K.ident n.name :: (W 58 b!":" :: as))) (.n .parameterType) (SE (.unary c p b!"*" (.typedIdent c' n t))) :=
  Gen.prod4 Fm.parameterType_83 (by decide) (gtok 42 b!"*") (g_ident n.name) (gtok 58 b!":") h (fun v1 v2 v3 v4 q1 ⟨n', e, q⟩ q3 q4 => ⟨_, rfl, by
    show Same _ (.unary {} v1.pos v1.tok (mkTyped v2.expr v4.expr))
    rw [q1.tok]
    exact Same.unary _ _ _ _ _ _ _ (same_typed e q q4)⟩)

theorem g_typedStarStar {c p n t as c'} (h : Gen as (.n (.any 2)) (SE t)) :
    Gen (W K.starStar b!"**" :: (W K.ident n.name :: (W 58 b!":" :: as))) (.n .parameterType) (SE (.unary c p b!"**" (.typedIdent c' n t))) :=
  Gen.prod4 Fm.parameterType_84 (by decide) (gtok K.starStar b!"**") (g_ident n.name) (gtok 58 b!":") h (fun v1 v2 v3 v4 q1 ⟨n', e, q⟩ q3 q4 => ⟨_, rfl, by
    show Same _ (.unary {} v1.pos v1.tok (mkTyped v2.expr v4.expr))
    rw [q1.tok]
    exact Same.unary _ _ _ _ _ _ _ (same_typed e q q4)⟩)

theorem g_kv {c k p v as1 as2} (h1 : Gen as1 (.n (.any 2)) (SE k)) (h2 : Gen as2 (.n (.any 2)) (SE v)) :
    Gen (as1 ++ W 58 b!":" :: as2) (.n .keyvalue) (SE (.keyValue c k p v)) :=
  Gen.prod3 Fm.keyvalue_130 (by decide) h1 (gtok 58 b!":") h2 (fun _ _ _ q1 _ q3 => ⟨_, rfl, Same.keyValue _ _ _ _ _ _ _ _ q1 q3⟩)

/-! ## Tuples without parentheses -/

def isBare : Expr → Bool
  | .tuple _ nb .. => nb
  | _ => false

theorem same_bare {e v : Expr} (h : Same e v) (hn : isBare e = false) : isBare v = false := by
  cases h <;> first | rfl | exact hn

theorem ok_bare {e : Expr} (h : Ok e) : isBare e = false := by cases h <;> rfl

/-- the value of a tuple under construction -/
def SB (l : List Expr) (v : Val) : Prop :=
  match l with
  | [x] => isBare v.expr = false ∧ Same x v.expr
  | l => ∃ c s l' e fc fm, v.expr = .tuple c true s l' e fc fm ∧ SameL l l'

theorem tupleAppend_spec {l : List Expr} {v : Val} {x x' : Expr} (hl : l ≠ []) (h : SB l v) (hx : Same x x') :
    ∃ c s l' e fc fm, tupleAppend v.expr x' = .tuple c true s l' e fc fm ∧ SameL (l ++ [x]) l' := by
  match l, hl, h with
  | [y], _, ⟨hb, hs⟩ =>
    have : tupleAppend v.expr x' = .tuple {} true {} [v.expr, x'] {} true false := by
      unfold tupleAppend
      cases hv : v.expr <;> try rfl
      rename_i c nb s l e fc fm
      cases nb
      · rfl
      · rw [hv] at hb; cases hb
    exact ⟨_, _, _, _, _, _, this, .cons _ _ _ _ hs (.cons _ _ _ _ hx .nil)⟩
  | y :: z :: l, _, ⟨c, s, l', e, fc, fm, hv, hs⟩ =>
    rw [hv]
    exact ⟨c, s, l' ++ [x'], e, fc, fm, rfl, hs.snoc hx⟩

theorem SB.snoc {l : List Expr} {x : Expr} (hl : l ≠ []) {v : Val} (h : ∃ c s l' e fc fm, v.expr = .tuple c true s l' e fc fm ∧ SameL (l ++ [x]) l') : SB (l ++ [x]) v := by
  match l, hl with
  | y :: l, _ =>
    cases l with
    | nil => exact h
    | cons z l => exact h

theorem SB.se {l : List Expr} (hl : 2 ≤ l.length) {c s e fc fm} {v : Val} (h : SB l v) : SE (.tuple c true s l e fc fm) v := by
  match l, hl, h with
  | x :: y :: l, _, ⟨c, s, l', e, fc, fm, hv, hs⟩ =>
    unfold SE; rw [hv]; exact Same.tuple _ _ _ _ _ _ _ _ _ _ _ _ _ hs

/-- the elements of a tuple without parentheses -/
theorem g_exprs {x : Expr} {l : List Expr} {a ass} (hx : Gen a (.n (.any 2)) (fun v => isBare v.expr = false ∧ Same x v.expr))
    (h : All2 (fun x as => Gen as (.n (.any 3)) (SE x)) l ass) : Gen (a ++ ass.flatMap (comma :: ·)) (.n .expr) (SB (x :: l)) := by
  have key : ∀ (l : List Expr) (ass : List (List ATok)) (done : List Expr) (acc : List ATok), All2 (fun x as => Gen as (.n (.any 3)) (SE x)) l ass → done ≠ [] →
      Gen acc (.n .expr) (SB done) → Gen (acc ++ ass.flatMap (comma :: ·)) (.n .expr) (SB (done ++ l)) := by
    intro l ass done acc h
    induction h generalizing done acc with
    | nil => intro _ hd; simpa using hd
    | cons x a l ass hx _ ih =>
      intro hn hd
      have h1 : Gen (acc ++ ([comma] ++ a)) (.n .expr) (SB (done ++ [x])) :=
        Gen.prod3 Fm.expr_86 (by decide) hd (gtok 44 b!",") hx (fun v1 v2 v3 q1 q2 q3 => ⟨_, rfl, SB.snoc hn (tupleAppend_spec hn q1 q3)⟩)
      have := ih (done ++ [x]) _ (by simp) h1
      simpa using this
  have h0 : Gen a (.n .expr) (SB [x]) := Gen.prod1 Fm.expr_85 (by decide) hx (fun v q => ⟨v, rfl, q⟩)
  exact key l ass [x] a h (by simp) h0

theorem g_vars {x : Expr} {l : List Expr} {a ass} (hx : Gen a (.n .primaryExpr) (fun v => isBare v.expr = false ∧ Same x v.expr))
    (h : All2 (fun x as => Gen as (.n .primaryExpr) (SE x)) l ass) : Gen (a ++ ass.flatMap (comma :: ·)) (.n .loopVars) (SB (x :: l)) := by
  have key : ∀ (l : List Expr) (ass : List (List ATok)) (done : List Expr) (acc : List ATok), All2 (fun x as => Gen as (.n .primaryExpr) (SE x)) l ass → done ≠ [] →
      Gen acc (.n .loopVars) (SB done) → Gen (acc ++ ass.flatMap (comma :: ·)) (.n .loopVars) (SB (done ++ l)) := by
    intro l ass done acc h
    induction h generalizing done acc with
    | nil => intro _ hd; simpa using hd
    | cons x a l ass hx _ ih =>
      intro hn hd
      have h1 : Gen (acc ++ ([comma] ++ a)) (.n .loopVars) (SB (done ++ [x])) :=
        Gen.prod3 Fm.loopVars_137 (by decide) hd (gtok 44 b!",") hx (fun v1 v2 v3 q1 q2 q3 => ⟨_, rfl, SB.snoc hn (tupleAppend_spec hn q1 q3)⟩)
      have := ih (done ++ [x]) _ (by simp) h1
      simpa using this
  have h0 : Gen a (.n .loopVars) (SB [x]) := Gen.prod1 Fm.loopVars_136 (by decide) hx (fun v q => ⟨v, rfl, q⟩)
  exact key l ass [x] a h (by simp) h0

theorem g_expr {x as} (h : Gen as (.n (.any 2)) (SE x)) : Gen as (.n .expr) (SE x) := Gen.prod1 Fm.expr_85 (by decide) h (fun v q => ⟨v, rfl, q⟩)
theorem g_var {x as} (h : Gen as (.n .primaryExpr) (SE x)) : Gen as (.n .loopVars) (SE x) := Gen.prod1 Fm.loopVars_136 (by decide) h (fun v q => ⟨v, rfl, q⟩)

/-! ## Optional expressions -/

theorem g_exprNone : Gen [] (.n .exprOpt) (SE .nil) := Gen.prod0 Fm.exprOpt_87 (by decide) ⟨_, rfl, .nil⟩
theorem g_exprSome {x as} (h : Gen as (.n .expr) (SE x)) : Gen as (.n .exprOpt) (SE x) := Gen.prod1 Fm.exprOpt_88 (by decide) h (fun v q => ⟨v, rfl, q⟩)
theorem g_testNone : Gen [] (.n .testOpt) (SE .nil) := Gen.prod0 Fm.testOpt_120 (by decide) ⟨_, rfl, .nil⟩
theorem g_testSome {x as} (h : Gen as (.n (.any 2)) (SE x)) : Gen as (.n .testOpt) (SE x) := Gen.prod1 Fm.testOpt_121 (by decide) h (fun v q => ⟨v, rfl, q⟩)

/-! ## Load statements -/

/-- the elements of a load statement -/
def LoadElem (x : Expr) (as : List ATok) : Prop :=
  match x with
  | .string n => ∃ t, as = [⟨K.string, t, n.value, n.triple⟩]
  | .assign _ (.ident n) _ _ _ (.string m) => ∃ t, as = [W K.ident n.name, W 61 b!"=", ⟨K.string, t, m.value, m.triple⟩]
  | _ => False

/-- the names loaded -/
def SLoad (fs ts : List IdentN) (v : Val) : Prop :=
  v.loadargs.map (·.1.name) = fs.map (·.name) ∧ v.loadargs.map (·.2.name) = ts.map (·.name)

theorem g_loadArg {f t : IdentN} {as} (h : LoadElem (if f.name = t.name then .string { identString f with comments := { f.comments with before := t.comments.before } }
     else .assign {} (.ident t) {} b!"=" false (.string (identString f))) as) : Gen as (.n .loadArgument) (SLoad [f] [t]) := by
  by_cases hn : f.name = t.name
  · rw [if_pos hn] at h
    obtain ⟨tx, rfl⟩ := h
    refine Gen.prod1 Fm.loadArgument_65 (by decide) (g_string tx f.name false) ?_
    rintro v ⟨n', e, h1, h2⟩
    refine ⟨_, rfl, ?_, ?_⟩
    · show [(asString v.expr).value] = [f.name]
      rw [e]; show [n'.value] = _; rw [h1]
    · show [(asString v.expr).value] = [t.name]
      rw [e]; show [n'.value] = _; rw [h1, hn]
  · rw [if_neg hn] at h
    obtain ⟨tx, rfl⟩ := h
    refine Gen.prod3 Fm.loadArgument_66 (by decide) (g_ident t.name) (gtok 61 b!"=") (g_string tx f.name false) ?_
    rintro v1 v2 v3 ⟨n1, e1, q1⟩ _ ⟨n', e, h1, h2⟩
    refine ⟨_, rfl, ?_, ?_⟩
    · show [(asString v3.expr).value] = [f.name]
      rw [e]; show [n'.value] = _; rw [h1]
    · show [(asIdent v1.expr).name] = [t.name]
      rw [e1]; show [n1.name] = _; rw [q1]

theorem g_loadArgs : ∀ {fs ts : List IdentN} {ass}, fs.length = ts.length → fs ≠ [] → All2 LoadElem (loadArgs fs ts) ass →
    Gen (joinC ass) (.n .loadArguments) (SLoad fs ts) := by
  have key : ∀ (fs ts : List IdentN) (ass : List (List ATok)) (f0 t0 : List IdentN) (acc : List ATok), fs.length = ts.length → All2 LoadElem (loadArgs fs ts) ass →
      Gen acc (.n .loadArguments) (SLoad f0 t0) → Gen (acc ++ ass.flatMap (comma :: ·)) (.n .loadArguments) (SLoad (f0 ++ fs) (t0 ++ ts)) := by
    intro fs
    induction fs with
    | nil =>
      intro ts ass f0 t0 acc hl h hd
      cases ts with
      | cons => cases hl
      | nil => cases h; simpa using hd
    | cons f fs ih =>
      intro ts ass f0 t0 acc hl h hd
      cases ts with
      | nil => cases hl
      | cons t ts =>
        cases h with
        | cons _ a _ ass hx h =>
          have h1 : Gen (acc ++ ([comma] ++ a)) (.n .loadArguments) (SLoad (f0 ++ [f]) (t0 ++ [t])) :=
            Gen.prod3 Fm.loadArguments_64 (by decide) hd (gtok 44 b!",") (g_loadArg hx) (fun v1 v2 v3 q1 q2 q3 => ⟨_, rfl, by
              show (v1.loadargs ++ v3.loadargs).map _ = _
              rw [List.map_append, List.map_append, q1.1, q3.1], by
              show (v1.loadargs ++ v3.loadargs).map _ = _
              rw [List.map_append, List.map_append, q1.2, q3.2]⟩)
          have := ih ts ass (f0 ++ [f]) (t0 ++ [t]) _ (by simpa using hl) h h1
          simpa using this
  intro fs ts ass hl hn h
  cases fs with
  | nil => exact absurd rfl hn
  | cons f fs =>
    cases ts with
    | nil => cases hl
    | cons t ts =>
      cases h with
      | cons _ a _ ass hx h =>
        rw [joinC_cons]
        exact key fs ts ass [f] [t] a (by simpa using hl) h (Gen.prod1 Fm.loadArguments_63 (by decide) (g_loadArg hx) (fun v q => ⟨v, rfl, q⟩))

theorem g_load {c p} {m : StringN} {fs ts : List IdentN} {r fc as} (hl : fs.length = ts.length) (hn : fs ≠ [])
    (h : SeqAll LoadElem .load (.string m :: loadArgs fs ts) as) :
    Gen (W K.load b!"load" :: (W 40 b!"(" :: (as ++ [W 41 b!")"]))) (.n .primary) (SE (.load c p m fs ts r fc)) := by
  obtain ⟨ass, tc, h1, rfl, _⟩ := h
  cases h1 with
  | cons _ a _ ass hx h1 =>
    obtain ⟨tx, rfl⟩ := hx
    have hne : ass ≠ [] := by
      rintro rfl
      have := h1.length
      cases fs with
      | nil => exact hn rfl
      | cons f fs => cases ts with
        | nil => cases hl
        | cons t ts => simp [loadArgs] at this
    have h2 := g_loadArgs hl hn h1
    refine (Gen.prod8 Fm.primary_44 (by decide) (gtok K.load b!"load") (gtok 40 b!"(") (g_commasOpt false) (g_string tx m.value m.triple) g_commas h2 (g_commasOpt tc) (gtok 41 b!")")
      (R := SE (.load c p m fs ts r fc)) ?_).cast ?_
    · rintro v1 v2 v3 v4 v5 v6 v7 v8 _ _ _ ⟨n', e4, q1, q2⟩ _ q6 _ _
      refine ⟨_, rfl, ?_⟩
      show Same _ (.load {} v1.pos (asString v4.expr) (v6.loadargs.map (·.1)) (v6.loadargs.map (·.2)) ⟨{}, v8.pos⟩ (v2.pos.line == v8.pos.line))
      rw [e4]
      refine Same.load _ _ _ _ _ _ _ _ _ _ _ _ _ _ q1.symm q2.symm ?_ ?_
      · rw [List.map_map]; exact q6.1.symm
      · rw [List.map_map]; exact q6.2.symm
    · cases ass with
      | nil => exact absurd rfl hne
      | cons b ass => simp [joinC, tcomma]

/-! ## Comprehensions -/

/-- the class of a clause; for an `if` the tokens after the keyword -/
def ClauseG (x : Expr) (as : List ATok) : Prop :=
  match x with
  | .forClause .. => Gen as (.n (.forClause (openClause x))) (SE x)
  | .ifClause _ _ y => ∃ as', as = W K.if_ b!"if" :: as' ∧ Gen as' (.n (.test 3 (openEnd y))) (SE y)
  | _ => False

theorem g_forClause {c p v i x as1 as2} (h1 : Gen as1 (.n .loopVars) (SE v)) (h2 : Gen as2 (.n (.test 3 (openEnd x))) (SE x)) :
    ClauseG (.forClause c p v i x) (W K.for_ b!"for" :: (as1 ++ W K.in_ b!"in" :: as2)) := by
  show Gen _ (.n (.forClause (openEnd x))) _
  cases ho : openEnd x
  · rw [ho] at h2
    exact Gen.prod4 Fm.forClausefalse_144 (by decide) (gtok K.for_ b!"for") h1 (gtok K.in_ b!"in") h2 (fun _ _ _ _ _ q2 _ q4 => ⟨_, rfl, Same.forClause _ _ _ _ _ _ _ _ _ _ q2 q4⟩)
  · rw [ho] at h2
    exact Gen.prod4 Fm.forClausetrue_144 (by decide) (gtok K.for_ b!"for") h1 (gtok K.in_ b!"in") h2 (fun _ _ _ _ _ q2 _ q4 => ⟨_, rfl, Same.forClause _ _ _ _ _ _ _ _ _ _ q2 q4⟩)

/-- one `for` clause with its `if` clauses, the rest of the list starting with a `for` or empty -/
theorem g_clauses {cl ass} (h : All2 ClauseG cl ass) (hf : forFirst cl = true) (ha : clausesApart cl = true) :
    Gen ass.flatten (.n .forClausesWithIfClausesOpt) (SL cl) := by
  -- `full`: complete groups; `cur`: the group being read
  have close : ∀ (full : List Expr) (accF : List ATok) (cur : List Expr) (accC : List ATok) (o : Bool),
      (full = [] ∧ accF = [] ∨ full ≠ [] ∧ Gen accF (.n .forClausesWithIfClausesOpt) (SL full)) → Gen accC (.n (.clauses o)) (SL cur) →
      Gen (accF ++ accC) (.n .forClausesWithIfClausesOpt) (SL (full ++ cur)) := by
    intro full accF cur accC o h hc
    rcases h with ⟨rfl, rfl⟩ | ⟨_, h⟩
    · cases o
      · exact Gen.prod1 Fm.forClausesWithIfClausesOpt_147 (by decide) hc (fun v q => ⟨v, rfl, q⟩)
      · exact Gen.prod1 Fm.forClausesWithIfClausesOpt_147_1 (by decide) hc (fun v q => ⟨v, rfl, q⟩)
    · cases o
      · exact Gen.prod2 Fm.forClausesWithIfClausesOpt_148 (by decide) h hc (fun v1 v2 q1 q2 => ⟨_, rfl, q1.append q2⟩)
      · exact Gen.prod2 Fm.forClausesWithIfClausesOpt_148_1 (by decide) h hc (fun v1 v2 q1 q2 => ⟨_, rfl, q1.append q2⟩)
  have start : ∀ (x : Expr) (a : List ATok), isIfClause x = false → ClauseG x a → Gen a (.n (.clauses (openClause x))) (SL [x]) := by
    intro x a hx h
    unfold ClauseG at h
    split at h
    · cases ho : openClause _
      · rw [ho] at h
        exact Gen.prod1 Fm.clausesfalse_145 (by decide) h (fun v q => ⟨_, rfl, .cons _ _ _ _ q .nil⟩)
      · rw [ho] at h
        exact Gen.prod1 Fm.clausestrue_145 (by decide) h (fun v q => ⟨_, rfl, .cons _ _ _ _ q .nil⟩)
    · cases hx
    · cases h
  have key : ∀ (cl : List Expr) (ass : List (List ATok)) (full : List Expr) (accF : List ATok) (cur : List Expr) (accC : List ATok) (y : Expr),
      All2 ClauseG cl ass → clausesApart (y :: cl) = true →
      (full = [] ∧ accF = [] ∨ full ≠ [] ∧ Gen accF (.n .forClausesWithIfClausesOpt) (SL full)) → Gen accC (.n (.clauses (openClause y))) (SL cur) → cur ≠ [] →
      Gen (accF ++ accC ++ ass.flatten) (.n .forClausesWithIfClausesOpt) (SL (full ++ cur ++ cl)) := by
    intro cl ass full accF cur accC y h
    induction h generalizing full accF cur accC y with
    | nil =>
      intro _ hf hc _
      have := close full accF cur accC _ hf hc
      simpa using this
    | cons x a cl ass hx _ ih =>
      intro hap hf hc hne
      have hap' : clausesApart (x :: cl) = true := by
        unfold clausesApart at hap
        simp only [Bool.and_eq_true] at hap
        exact hap.2
      cases hi : isIfClause x with
      | false =>
        have := ih (full ++ cur) (accF ++ accC) [x] a x hap' (.inr ⟨by simp [hne], close _ _ _ _ _ hf hc⟩) (start x a hi hx) (by simp)
        simpa using this
      | true =>
        have hy : openClause y = false := by
          unfold clausesApart at hap
          simp only [Bool.and_eq_true, Bool.not_eq_true', hi, Bool.and_true] at hap
          exact hap.1
        rw [hy] at hc
        cases x <;> first | (cases hi) | skip
        rename_i c p z
        obtain ⟨a', rfl, hz⟩ := hx
        have h1 : Gen (accC ++ (W K.if_ b!"if" :: a')) (.n (.clauses (openEnd z))) (SL (cur ++ [.ifClause c p z])) := by
          cases ho : openEnd z
          · rw [ho] at hz
            exact Gen.prod3 Fm.clausesfalse_146 (by decide) hc (gtok K.if_ b!"if") hz (fun v1 v2 v3 q1 q2 q3 => ⟨_, rfl, q1.snoc (Same.ifClause _ _ _ _ _ _ q3)⟩)
          · rw [ho] at hz
            exact Gen.prod3 Fm.clausestrue_146 (by decide) hc (gtok K.if_ b!"if") hz (fun v1 v2 v3 q1 q2 q3 => ⟨_, rfl, q1.snoc (Same.ifClause _ _ _ _ _ _ q3)⟩)
        have := ih full accF (cur ++ [.ifClause c p z]) _ (.ifClause c p z) hap' hf h1 (by simp)
        simpa using this
  cases h with
  | nil => cases hf
  | cons x a cl ass hx h =>
    have hi : isIfClause x = false := by cases x <;> first | rfl | cases hf
    have := key cl ass [] [] [x] a x h ha (.inl ⟨rfl, rfl⟩) (start x a hi hx) (by simp)
    simpa using this

theorem g_listCompr {c p b cl fm e as1 as2} (h1 : Gen as1 (.n (.any 2)) (SE b)) (h2 : Gen as2 (.n .forClausesWithIfClausesOpt) (SL cl)) :
    Gen (W 91 b!"[" :: ((as1 ++ as2) ++ [W 93 b!"]"])) (.n .primary) (SE (.compr c false p b cl fm e)) :=
  (Gen.prod4 Fm.primary_50 (by decide) (gtok 91 b!"[") h1 h2 (gtok 93 b!"]") (R := SE (.compr c false p b cl fm e))
    (fun _ _ _ _ _ q2 q3 _ => ⟨_, rfl, Same.compr _ _ _ _ _ _ _ _ _ _ _ _ _ q2 q3⟩)).cast (by simp)

theorem g_dictCompr {c p b cl fm e as1 as2} (h1 : Gen as1 (.n .keyvalue) (SE b)) (h2 : Gen as2 (.n .forClausesWithIfClausesOpt) (SL cl)) :
    Gen (W 123 b!"{" :: ((as1 ++ as2) ++ [W 125 b!"}"])) (.n .primary) (SE (.compr c true p b cl fm e)) :=
  (Gen.prod4 Fm.primary_51 (by decide) (gtok 123 b!"{") h1 h2 (gtok 125 b!"}") (R := SE (.compr c true p b cl fm e))
    (fun _ _ _ _ _ q2 q3 _ => ⟨_, rfl, Same.compr _ _ _ _ _ _ _ _ _ _ _ _ _ q2 q3⟩)).cast (by simp)

end Verif.Round
