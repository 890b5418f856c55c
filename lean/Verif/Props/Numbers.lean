import Verif.Model.Numbers
import Verif.Proofs.WalkMut
/-
C21: the number rewrites keep the number denoted by a literal.
-/
namespace Verif.Props.Numbers
open Verif Verif.Syntax Verif.Rewrite Verif.Walk

/-! ### Specification: what number literals denote -/

def IsDigit (c : UInt8) : Prop := c!"0" ≤ c ∧ c ≤ c!"9"
def IsOctDigit (c : UInt8) : Prop := c!"0" ≤ c ∧ c ≤ c!"7"

instance (c : UInt8) : Decidable (IsDigit c) := inferInstanceAs (Decidable (_ ∧ _))
instance (c : UInt8) : Decidable (IsOctDigit c) := inferInstanceAs (Decidable (_ ∧ _))

/-- value of a digit string in the given base -/
def digitsVal (base : Nat) (l : Bytes) : Nat := l.foldl (fun n c => n * base + (c.toNat - 48)) 0

/-- `0123`: the octal notation of Python 2 -/
def IsLegacyOctal (t : Bytes) (n : Nat) : Prop :=
  ∃ ds, t = c!"0" :: ds ∧ ds ≠ [] ∧ (∀ d ∈ ds, IsOctDigit d) ∧ n = digitsVal 8 ds

/-- `0o123` -/
def IsOctal (t : Bytes) (n : Nat) : Prop :=
  ∃ ds, t = b!"0o" ++ ds ∧ ds ≠ [] ∧ (∀ d ∈ ds, IsOctDigit d) ∧ n = digitsVal 8 ds

/-- An exponent part and its value: nothing, or `e`/`E`, an optional sign, and digits. -/
inductive IsExp : Bytes → Int → Prop
  | none : IsExp [] 0
  | plain (m d) : m = c!"e" ∨ m = c!"E" → d ≠ [] → (∀ c ∈ d, IsDigit c) → IsExp (m :: d) (digitsVal 10 d)
  | plus (m d) : m = c!"e" ∨ m = c!"E" → d ≠ [] → (∀ c ∈ d, IsDigit c) → IsExp (m :: c!"+" :: d) (digitsVal 10 d)
  | minus (m d) : m = c!"e" ∨ m = c!"E" → d ≠ [] → (∀ c ∈ d, IsDigit c) → IsExp (m :: c!"-" :: d) (-(digitsVal 10 d : Int))

/-- `t` is a literal with a decimal point that denotes `M * 10 ^ E` -/
def IsFloat (t : Bytes) (M : Nat) (E : Int) : Prop :=
  ∃ i f x ev, t = i ++ c!"." :: f ++ x ∧ (∀ c ∈ i, IsDigit c) ∧ (∀ c ∈ f, IsDigit c) ∧ i ++ f ≠ [] ∧ IsExp x ev ∧
    M = digitsVal 10 (i ++ f) ∧ E = ev - f.length

/-- the exponent is written without minus sign and is zero, such as in `1.0e0`, `2.5E+00` -/
def ZeroExp (t : Bytes) : Prop :=
  ∃ i f m s d, t = i ++ c!"." :: f ++ m :: (s ++ d) ∧ (∀ c ∈ i, IsDigit c) ∧ (∀ c ∈ f, IsDigit c) ∧
    (m = c!"e" ∨ m = c!"E") ∧ (s = [] ∨ s = [c!"+"]) ∧ d ≠ [] ∧ ∀ c ∈ d, c = c!"0"

/-! ### Proofs -/

theorem editOctal_cons (a b : UInt8) (l : Bytes) : editOctal (a :: b :: l) =
    if a = c!"0" && c!"0" ≤ b && b ≤ c!"9" then c!"0" :: c!"o" :: b :: l else a :: b :: l := rfl

/-- **C21 (octal).** An octal literal `0123` becomes `0o123` with the same value. -/
theorem C21_octal_value (t : Bytes) (n : Nat) (h : IsLegacyOctal t n) : IsOctal (editOctal t) n := by
  obtain ⟨ds, rfl, hne, hd, rfl⟩ := h
  cases ds with
  | nil => exact absurd rfl hne
  | cons d ds =>
    have hd0 := hd d (by simp)
    have : (c!"0" ≤ d) ∧ (d ≤ c!"9") := ⟨hd0.1, Nat.le_trans (show d.toNat ≤ 55 from hd0.2) (by decide)⟩
    refine ⟨d :: ds, ?_, by simp, hd, rfl⟩
    rw [editOctal_cons]
    simp [this.1, this.2]

/-- **C21 (octal, rest).** Every token that does not start with `0` and a digit is left alone; in particular decimal
integers, `0`, `0x...`, `0o...` and floats such as `0.5`. -/
theorem C21_octal_others (t : Bytes) (h : ¬ ∃ d l, t = c!"0" :: d :: l ∧ IsDigit d) : editOctal t = t := by
  match t with
  | [] => rfl
  | [a] => rfl
  | a :: b :: l =>
    rw [editOctal_cons]
    split
    · rename_i hc
      simp only [Bool.and_eq_true, decide_eq_true_eq] at hc
      exact absurd ⟨b, l, by rw [hc.1.1], hc.1.2, hc.2⟩ h
    · rfl

/-- **C21 (octal, idempotent).** -/
theorem C21_octal_idempotent (t : Bytes) : editOctal (editOctal t) = editOctal t := by
  match t with
  | [] => rfl
  | [a] => rfl
  | a :: b :: l =>
    rw [editOctal_cons]
    split
    · rfl
    · rename_i hc; rw [editOctal_cons, if_neg hc]

theorem split2_none (c : UInt8) (s : Bytes) (h : c ∉ s) : split2 c s = (s, none) := by
  induction s with
  | nil => rfl
  | cons x s ih =>
    simp only [List.mem_cons, not_or] at h
    rw [split2, if_neg (fun e => h.1 e.symm), ih h.2]

theorem split2_append (c : UInt8) (a b : Bytes) (h : c ∉ a) : split2 c (a ++ c :: b) = (a, some b) := by
  induction a with
  | nil => simp [split2]
  | cons x a ih =>
    simp only [List.mem_cons, not_or] at h
    rw [List.cons_append, split2, if_neg (fun e => h.1 e.symm), ih h.2]

/-- the mantissa has no `e` -/
theorem mem_mant {i f : Bytes} {c : UInt8} (hi : ∀ c ∈ i, IsDigit c) (hf : ∀ c ∈ f, IsDigit c)
    (h : c ∈ i ++ c!"." :: f) : c = c!"." ∨ IsDigit c := by
  rcases List.mem_append.mp h with h | h
  · exact Or.inr (hi c h)
  · rcases List.mem_cons.mp h with h | h
    · exact Or.inl h
    · exact Or.inr (hf c h)

theorem not_digit_e (c : UInt8) (h : c = c!"e" ∨ c = c!"E" ∨ c = c!"+" ∨ c = c!"-" ∨ c = c!".") : ¬ IsDigit c := by
  rcases h with rfl | rfl | rfl | rfl | rfl <;> decide

theorem editExponent_mant (i f : Bytes) (hi : ∀ c ∈ i, IsDigit c) (hf : ∀ c ∈ f, IsDigit c) :
    editExponent (i ++ c!"." :: f) = i ++ c!"." :: f := by
  unfold editExponent
  rw [if_pos]
  have : ∀ c, c = c!"e" ∨ c = c!"E" → c ∉ i ++ c!"." :: f := by
    intro c hc hm
    rcases mem_mant hi hf hm with h | h
    · rcases hc with rfl | rfl <;> cases h
    · exact not_digit_e c (by rcases hc with h | h <;> simp [h]) h
  have h1 := this c!"e" (Or.inl rfl)
  have h2 := this c!"E" (Or.inr rfl)
  simp only [Bool.not_eq_true', Bool.or_eq_false_iff]
  exact ⟨by simpa using h1, by simpa using h2⟩

theorem editExponent_exp (i f x : Bytes) (m : UInt8) (hm : m = c!"e" ∨ m = c!"E") (hi : ∀ c ∈ i, IsDigit c)
    (hf : ∀ c ∈ f, IsDigit c) (hx : c!"e" ∉ x) :
    editExponent (i ++ c!"." :: f ++ m :: x) = i ++ c!"." :: f ++ c!"e" :: trimZeroPlus x := by
  have hno : ∀ c, c = c!"e" ∨ c = c!"E" → c ∉ i ++ c!"." :: f := by
    intro c hc hm
    rcases mem_mant hi hf hm with h | h
    · rcases hc with rfl | rfl <;> cases h
    · exact not_digit_e c (by rcases hc with h | h <;> simp [h]) h
  unfold editExponent
  rw [if_neg]
  · rcases hm with rfl | rfl
    · rw [split2_append _ _ _ (hno _ (Or.inl rfl))]
    · rw [split2_none c!"e"]
      · simp only
        rw [split2_append _ _ _ (hno _ (Or.inr rfl))]
      · intro h
        rcases List.mem_append.mp h with h | h
        · exact hno _ (Or.inl rfl) h
        · rcases List.mem_cons.mp h with h | h
          · cases h
          · exact hx h
  · rcases hm with rfl | rfl <;> simp

theorem digits_no_e {d : Bytes} (h : ∀ c ∈ d, IsDigit c) : c!"e" ∉ d :=
  fun hm => not_digit_e _ (Or.inl rfl) (h _ hm)

theorem digitsVal_zero (base : Nat) (l : Bytes) : digitsVal base (c!"0" :: l) = digitsVal base l := by
  simp [digitsVal]

theorem digitsVal_trim (d : Bytes) (h : ∀ c ∈ d, IsDigit c) : digitsVal 10 (trimZeroPlus d) = digitsVal 10 d ∧
    ∀ c ∈ trimZeroPlus d, IsDigit c := by
  induction d with
  | nil => exact ⟨rfl, h⟩
  | cons c d ih =>
    have ih := ih (fun x hx => h x (by simp [hx]))
    unfold trimZeroPlus at *
    rw [List.dropWhile_cons]
    split
    · rename_i hc
      have hc0 : c = c!"0" := by
        simp only [Bool.or_eq_true, beq_iff_eq] at hc
        rcases hc with hc | hc
        · exact hc
        · exact absurd (h c (by simp)) (not_digit_e c (by simp [hc]))
      rw [hc0, digitsVal_zero]; exact ih
    · exact ⟨rfl, h⟩

theorem trim_nil_iff (d : Bytes) (h : ∀ c ∈ d, IsDigit c) : trimZeroPlus d = [] ↔ ∀ c ∈ d, c = c!"0" := by
  induction d with
  | nil => simp [trimZeroPlus]
  | cons c d ih =>
    have ih := ih (fun x hx => h x (by simp [hx]))
    unfold trimZeroPlus at *
    rw [List.dropWhile_cons]
    split
    · rename_i hc
      have hc0 : c = c!"0" := by
        simp only [Bool.or_eq_true, beq_iff_eq] at hc
        rcases hc with hc | hc
        · exact hc
        · exact absurd (h c (by simp)) (not_digit_e c (by simp [hc]))
      rw [ih]; simp [hc0]
    · rename_i hc
      simp only [Bool.or_eq_true, beq_iff_eq, not_or] at hc
      simp [hc.1]

/-- what the rewrite does to the mantissa -/
def zeroFirst (i : Bytes) : Bytes := if i = [] then [c!"0"] else i

theorem editFloat_eq (i f x : Bytes) (hi : ∀ c ∈ i, IsDigit c) :
    editFloat (i ++ c!"." :: f ++ x) = editExponent (zeroFirst i ++ c!"." :: f ++ x) := by
  unfold editFloat
  rw [if_neg (by simp)]
  congr 1
  cases i with
  | nil => simp [zeroFirst, hasPrefix, List.isPrefixOf]
  | cons d i =>
    have : d ≠ c!"." := fun e => not_digit_e d (by simp [e]) (hi d (by simp))
    simp [zeroFirst, hasPrefix, List.isPrefixOf, Ne.symm this]

theorem zeroFirst_digits {i : Bytes} (h : ∀ c ∈ i, IsDigit c) : ∀ c ∈ zeroFirst i, IsDigit c := by
  unfold zeroFirst
  split
  · intro c hc; simp at hc; rw [hc]; decide
  · exact h

theorem zeroFirst_val (i f : Bytes) : digitsVal 10 (zeroFirst i ++ f) = digitsVal 10 (i ++ f) := by
  unfold zeroFirst
  split
  · rename_i h; rw [h]; exact digitsVal_zero 10 f
  · rfl

theorem isFloat_mk {i f x : Bytes} {ev : Int} (hi : ∀ c ∈ i, IsDigit c) (hf : ∀ c ∈ f, IsDigit c) (hx : IsExp x ev) :
    IsFloat (zeroFirst i ++ c!"." :: f ++ x) (digitsVal 10 (i ++ f)) (ev - f.length) := by
  refine ⟨zeroFirst i, f, x, ev, rfl, zeroFirst_digits hi, hf, ?_, hx, (zeroFirst_val i f).symm, rfl⟩
  unfold zeroFirst
  split
  · simp
  · rename_i h; simp [h]

/-- split of a float literal at the point is unique -/
theorem point_unique {i f x i' f' x' : Bytes} (h : i ++ c!"." :: f ++ x = i' ++ c!"." :: f' ++ x')
    (hi : ∀ c ∈ i, IsDigit c) (hi' : ∀ c ∈ i', IsDigit c) : i = i' ∧ f ++ x = f' ++ x' := by
  induction i generalizing i' with
  | nil =>
    cases i' with
    | nil => simpa using h
    | cons d i' =>
      simp only [List.nil_append, List.cons_append, List.cons.injEq] at h
      exact absurd (hi' d (by simp)) (not_digit_e d (by simp [← h.1]))
  | cons d i ih =>
    cases i' with
    | nil =>
      simp only [List.nil_append, List.cons_append, List.cons.injEq] at h
      exact absurd (hi d (by simp)) (not_digit_e d (by simp [h.1]))
    | cons d' i' =>
      simp only [List.cons_append, List.cons.injEq] at h
      have := ih h.2 (fun c hc => hi c (by simp [hc])) (fun c hc => hi' c (by simp [hc]))
      exact ⟨by rw [h.1, this.1], this.2⟩

theorem exp_unique {f x f' x' : Bytes} (h : f ++ x = f' ++ x') (hf : ∀ c ∈ f, IsDigit c) (hf' : ∀ c ∈ f', IsDigit c)
    (hx : ∀ c l, x = c :: l → ¬ IsDigit c) (hx' : ∀ c l, x' = c :: l → ¬ IsDigit c) : f = f' ∧ x = x' := by
  induction f generalizing f' with
  | nil =>
    cases f' with
    | nil => exact ⟨rfl, h⟩
    | cons d f' => exact absurd (hf' d (by simp)) (hx d _ h)
  | cons d f ih =>
    cases f' with
    | nil => exact absurd (hf d (by simp)) (hx' d _ h.symm)
    | cons d' f' =>
      simp only [List.cons_append, List.cons.injEq] at h
      have := ih h.2 (fun c hc => hf c (by simp [hc])) (fun c hc => hf' c (by simp [hc]))
      exact ⟨by rw [h.1, this.1], this.2⟩

theorem isExp_head {x : Bytes} {v : Int} (h : IsExp x v) : ∀ c l, x = c :: l → ¬ IsDigit c := by
  intro c l e
  cases h with
  | none => cases e
  | plain m d hm _ _ => injection e with e1; rw [← e1]; exact not_digit_e m (by rcases hm with h | h <;> simp [h])
  | plus m d hm _ _ => injection e with e1; rw [← e1]; exact not_digit_e m (by rcases hm with h | h <;> simp [h])
  | minus m d hm _ _ => injection e with e1; rw [← e1]; exact not_digit_e m (by rcases hm with h | h <;> simp [h])

theorem exp_e_not_empty (v : Int) : ¬ IsExp [c!"e"] v := by
  intro h
  cases h with
  | plain m d _ hne _ => exact hne rfl

/-- **C21 (float, value).** Exactly: a literal with a decimal point denoting `M * 10 ^ E` still denotes `M * 10 ^ E` after the
rewrite, unless its exponent is zero and written without minus sign, in which case the result is no number any more. -/
theorem C21_float_value (t : Bytes) (M : Nat) (E : Int) (h : IsFloat t M E) :
    (¬ ZeroExp t → IsFloat (editFloat t) M E) ∧
    (ZeroExp t → ∀ M' E', ¬ IsFloat (editFloat t) M' E') := by
  obtain ⟨i, f, x, ev, rfl, hi, hf, hne, hx, rfl, rfl⟩ := h
  have hz := zeroFirst_digits hi
  constructor
  · intro hnz
    rw [editFloat_eq i f x hi]
    cases hx with
    | none => rw [List.append_nil, editExponent_mant _ _ hz hf]
              have := isFloat_mk (x := []) hi hf .none
              rwa [List.append_nil] at this
    | plain m d hm hd0 hd =>
      rw [editExponent_exp _ _ _ m hm hz hf (digits_no_e hd)]
      have ht := digitsVal_trim d hd
      rw [← ht.1]
      refine isFloat_mk hi hf (.plain _ _ (Or.inl rfl) ?_ ht.2)
      rw [Ne, trim_nil_iff d hd]
      intro hall
      exact hnz ⟨i, f, m, [], d, rfl, hi, hf, hm, Or.inl rfl, hd0, hall⟩
    | plus m d hm hd0 hd =>
      have hne' : c!"e" ∉ c!"+" :: d := by
        intro h; rcases List.mem_cons.mp h with h | h
        · cases h
        · exact digits_no_e hd h
      rw [editExponent_exp _ _ _ m hm hz hf hne']
      have ht := digitsVal_trim d hd
      have hp : trimZeroPlus (c!"+" :: d) = trimZeroPlus d := by simp [trimZeroPlus]
      rw [← ht.1, hp]
      refine isFloat_mk hi hf (.plain _ _ (Or.inl rfl) ?_ ht.2)
      rw [Ne, trim_nil_iff d hd]
      intro hall
      exact hnz ⟨i, f, m, [c!"+"], d, rfl, hi, hf, hm, Or.inr rfl, hd0, hall⟩
    | minus m d hm hd0 hd =>
      have hne' : c!"e" ∉ c!"-" :: d := by
        intro h; rcases List.mem_cons.mp h with h | h
        · cases h
        · exact digits_no_e hd h
      rw [editExponent_exp _ _ _ m hm hz hf hne']
      have hp : trimZeroPlus (c!"-" :: d) = c!"-" :: d := by simp [trimZeroPlus]
      rw [hp]
      exact isFloat_mk hi hf (.minus _ _ (Or.inl rfl) hd0 hd)
  · rintro ⟨i', f', m, s, d, e, hi', hf', hm, hs, hd0, hd⟩ M' E' hF
    have hdd : ∀ c ∈ d, IsDigit c := fun c hc => by rw [hd c hc]; decide
    have hsd : c!"e" ∉ s ++ d := by
      intro h
      rcases List.mem_append.mp h with h | h
      · rcases hs with rfl | rfl
        · cases h
        · simp at h
      · exact digits_no_e hdd h
    have htr : trimZeroPlus (s ++ d) = [] := by
      rcases hs with rfl | rfl
      · exact (trim_nil_iff d hdd).mpr hd
      · have : trimZeroPlus ([c!"+"] ++ d) = trimZeroPlus d := by simp [trimZeroPlus]
        rw [this]; exact (trim_nil_iff d hdd).mpr hd
    rw [e, editFloat_eq i' f' _ hi', editExponent_exp _ _ _ m hm (zeroFirst_digits hi') hf' hsd, htr] at hF
    obtain ⟨i2, f2, x2, ev2, e2, hi2, hf2, _, hx2, _, _⟩ := hF
    have h1 := point_unique e2 (zeroFirst_digits hi') hi2
    have h2 := exp_unique h1.2 hf' hf2 (by
      intro c l hc; injection hc with hc; rw [← hc]; decide) (isExp_head hx2)
    rw [← h2.2] at hx2
    exact exp_e_not_empty ev2 hx2

theorem trim_idem (x : Bytes) : trimZeroPlus (trimZeroPlus x) = trimZeroPlus x := by
  unfold trimZeroPlus
  induction x with
  | nil => rfl
  | cons c x ih =>
    rw [List.dropWhile_cons]
    split
    · exact ih
    · rename_i hc; rw [List.dropWhile_cons, if_neg hc]

theorem split2_spec (c : UInt8) (s : Bytes) :
    ((split2 c s).2 = none ∧ (split2 c s).1 = s ∧ c ∉ s) ∨
    (∃ x, (split2 c s).2 = some x ∧ s = (split2 c s).1 ++ c :: x ∧ c ∉ (split2 c s).1) := by
  induction s with
  | nil => left; simp [split2]
  | cons a s ih =>
    rw [split2]
    by_cases h : a = c
    · right; rw [if_pos h]; exact ⟨s, rfl, by simp [h], by simp⟩
    · rw [if_neg h]
      have h' : ¬ c = a := fun e => h e.symm
      rcases ih with ⟨h1, h2, h3⟩ | ⟨x, h1, h2, h3⟩
      · left; refine ⟨h1, by simp only [h2], by simp [h3, h']⟩
      · right; exact ⟨x, h1, by simp only [List.cons_append]; rw [← h2], by simp [h3, h']⟩

theorem editExponent_form (t : Bytes) : editExponent t = t ∨
    ∃ m x, c!"e" ∉ m ∧ editExponent t = m ++ c!"e" :: trimZeroPlus x ∧ (t = m ++ c!"e" :: x ∨ t = m ++ c!"E" :: x) := by
  unfold editExponent
  split
  · exact Or.inl rfl
  · rcases split2_spec c!"e" t with ⟨h1, h2, h3⟩ | ⟨x, h1, h2, h3⟩
    · have : split2 c!"e" t = ((split2 c!"e" t).1, none) := by rw [← h1]
      rw [this]
      simp only
      rcases split2_spec c!"E" t with ⟨k1, k2, k3⟩ | ⟨x, k1, k2, k3⟩
      · have : split2 c!"E" t = ((split2 c!"E" t).1, none) := by rw [← k1]
        rw [this]; exact Or.inl rfl
      · have : split2 c!"E" t = ((split2 c!"E" t).1, some x) := by rw [← k1]
        rw [this]
        right
        refine ⟨(split2 c!"E" t).1, x, ?_, rfl, Or.inr k2⟩
        intro h; apply h3; rw [k2]; exact List.mem_append_left _ h
    · have : split2 c!"e" t = ((split2 c!"e" t).1, some x) := by rw [← h1]
      rw [this]
      exact Or.inr ⟨_, x, h3, rfl, Or.inl h2⟩

theorem editExponent_done (m x : Bytes) (h : c!"e" ∉ m) :
    editExponent (m ++ c!"e" :: x) = m ++ c!"e" :: trimZeroPlus x := by
  unfold editExponent
  rw [if_neg (by simp), split2_append _ _ _ h]

/-- **C21 (float, idempotent).** For every token. -/
theorem C21_float_idempotent (t : Bytes) : editFloat (editFloat t) = editFloat t := by
  unfold editFloat
  by_cases hp : t.contains c!"." = true
  · simp only [hp, Bool.not_true, Bool.false_eq_true, if_false]
    generalize hu : (if hasPrefix t b!"." = true then c!"0" :: t else t) = u
    have hu1 : u.contains c!"." = true := by
      rw [← hu]; split
      · simp at hp ⊢; exact hp
      · exact hp
    have hu2 : hasPrefix u b!"." = false := by
      rw [← hu]; split
      · simp [hasPrefix, List.isPrefixOf]
      · rename_i h; simpa using h
    rcases editExponent_form u with h | ⟨m, x, hm, h, ht⟩
    · rw [h, hu1, hu2]; simp [h]
    · rw [h]
      have hh : (c!"." ∈ m) ∨ c!"." ∈ x := by
        rw [List.contains_iff_mem] at hu1
        rcases ht with ht | ht <;> rw [ht] at hu1 <;> simpa using hu1
      have htrim : c!"." ∈ x → c!"." ∈ trimZeroPlus x := by
        intro hx
        unfold trimZeroPlus
        clear h ht hh
        induction x with
        | nil => cases hx
        | cons c x ih =>
          rw [List.dropWhile_cons]
          split
          · rename_i hc
            rcases List.mem_cons.mp hx with hx | hx
            · rw [← hx] at hc; simp at hc
            · exact ih hx
          · exact hx
      have h1 : (m ++ c!"e" :: trimZeroPlus x).contains c!"." = true := by
        rw [List.contains_iff_mem]
        rcases hh with hh | hh
        · exact List.mem_append_left _ hh
        · exact List.mem_append_right _ (List.mem_cons_of_mem _ (htrim hh))
      have h2 : hasPrefix (m ++ c!"e" :: trimZeroPlus x) b!"." = false := by
        cases m with
        | nil => simp [hasPrefix, List.isPrefixOf]
        | cons c m =>
          have : hasPrefix (c :: m ++ c!"E" :: x) b!"." = false ∨ hasPrefix (c :: m ++ c!"e" :: x) b!"." = false := by
            rcases ht with ht | ht <;> rw [ht] at hu2
            · exact Or.inr hu2
            · exact Or.inl hu2
          simpa [hasPrefix, List.isPrefixOf] using this
      rw [h1, h2]
      simp only [Bool.not_true, Bool.false_eq_true, if_false]
      rw [editExponent_done m _ hm, trim_idem]
  · have hp' : t.contains c!"." = false := by simpa using hp
    simp only [hp', Bool.not_false, if_true]

/-- **C21 (float, rest).** Tokens without a decimal point are left alone. -/
theorem C21_float_others (t : Bytes) (h : c!"." ∉ t) : editFloat t = t := by
  unfold editFloat; rw [if_pos]; simpa using h

/-! ### Whole trees -/

/-- the token of a literal replaced, everything else kept -/
def onToken (g : Bytes → Bytes) : Expr → Expr
  | .literal c p t => .literal c p (g t)
  | e => e

/-- a literal that the rewrite has nothing to do to -/
def Done (g : Bytes → Bytes) (v : Expr) : Prop := ∀ c p t, v = .literal c p t → g t = t

theorem mapLiteral_ok (g : Bytes → Bytes) (hg : ∀ t, g (g t) = g t) (v : Expr) (h : treeOk v) :
    mapE (onToken g) (mapLiteral g v) = mapE (onToken g) v ∧ leafKept v (mapLiteral g v) ∧ treeOk (mapLiteral g v) := by
  cases v with
  | literal c p t => exact ⟨by simp only [mapLiteral, mapE, onToken, hg], trivial, (treeOk_iff _).mpr ⟨trivial, by simp [mapLiteral, slots]⟩⟩
  | ident => exact ⟨rfl, leafKept_refl _, h⟩
  | string => exact ⟨rfl, leafKept_refl _, h⟩
  | _ => exact ⟨rfl, trivial, h⟩

theorem tree_same (g : Bytes → Bytes) (hg : ∀ t, g (g t) = g t) (e : Expr) (h : treeOk e) :
    mapE (onToken g) (walkMut (fun x _ => mapLiteral g x) e) = mapE (onToken g) e :=
  (editN_mapE (onToken g) (fun (_ : Unit) x _ => ((), mapLiteral g x, false))
    (fun _ v _ hv => mapLiteral_ok g hg v hv) (size e) () e [] h).1

theorem tree_done (g : Bytes → Bytes) (hg : ∀ t, g (g t) = g t) (e : Expr) (h : treeOk e) :
    All (Done g) (walkMut (fun x _ => mapLiteral g x) e) := by
  rw [walkMut_eq]
  refine mutN_all (fun x _ => mapLiteral g x) (fun v _ hv => (mapLiteral_ok g hg v hv).2) ?_ (Done g) ?_ ?_ _ e [] (Nat.le_refl _) h
  · intro v _; cases v <;> rfl
  · intro c p t e; cases e
  · intro v _ k hk c p t e
    cases v with
    | literal c' p' t' =>
      have : k = [] := List.eq_nil_of_length_eq_zero hk
      subst this
      simp only [mapLiteral, withSlots] at e
      cases e; exact hg t'
    | _ => simp only [mapLiteral] at e; unfold withSlots at e; split at e <;> cases e

/-- **C21 (trees, octal).** Rewriting a tree changes nothing but the tokens of literals; each new token has the same normal form
as the old one, and every literal that the traversal reaches is in normal form. -/
theorem C21_octal_tree (e : Expr) (h : treeOk e) :
    mapE (onToken editOctal) (editOctals e) = mapE (onToken editOctal) e ∧ All (Done editOctal) (editOctals e) :=
  ⟨tree_same _ C21_octal_idempotent e h, tree_done _ C21_octal_idempotent e h⟩

/-- **C21 (trees, float).** The same for floats. -/
theorem C21_float_tree (e : Expr) (h : treeOk e) :
    mapE (onToken editFloat) (editFloats e) = mapE (onToken editFloat) e ∧ All (Done editFloat) (editFloats e) :=
  ⟨tree_same _ C21_float_idempotent e h, tree_done _ C21_float_idempotent e h⟩

/-! ### Witnesses -/

/-- hypotheses met by real literals, and the documented effect -/
example : IsLegacyOctal b!"0755" 493 ∧ editOctal b!"0755" = b!"0o755" :=
  ⟨⟨b!"755", rfl, by decide, by decide, by decide⟩, by decide⟩
example : IsFloat b!".5E+07" 5 6 ∧ ¬ ZeroExp b!".5E+07" ∧ editFloat b!".5E+07" = b!"0.5e7" := by
  refine ⟨⟨[], b!"5", b!"E+07", 7, rfl, by decide, by decide, by decide, ?_, by decide, by decide⟩, ?_, by decide⟩
  · exact .plus c!"E" b!"07" (Or.inr rfl) (by decide) (by decide)
  · rintro ⟨i, f, m, s, d, e, hi, hf, hm, hs, hd0, hd⟩
    have h7 : c!"7" ∈ d := by
      have hl : (b!".5E+07").getLast? = some c!"7" := rfl
      rw [e] at hl
      cases hd' : d.reverse with
      | nil => simp at hd'; exact absurd hd' hd0
      | cons a r =>
        have hd2 : d = r.reverse ++ [a] := by have := congrArg List.reverse hd'; simpa using this
        rw [hd2] at hl ⊢
        have : i ++ c!"." :: f ++ m :: (s ++ (r.reverse ++ [a])) = (i ++ c!"." :: f ++ m :: (s ++ r.reverse)) ++ [a] := by simp
        rw [this, List.getLast?_append] at hl
        simp at hl
        simp [hl]
    have := hd _ h7
    cases this

/-- Finding: `1.0e0` (and `1.5E+00`) become `1.0e`, which is no number. -/
theorem C21_zero_exponent_witness : editFloat b!"1.0e0" = b!"1.0e" ∧ editFloat b!"1.5E+00" = b!"1.5e" := by decide

/-- Finding: the octal rewrite breaks floats with a leading zero: `01.5` becomes `0o1.5`. -/
theorem C21_leading_zero_float_witness : editOctal b!"01.5" = b!"0o1.5" := by decide

end Verif.Props.Numbers
