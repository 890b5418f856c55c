import Verif.Props.AgainSpec
import Verif.Proofs.Again.PrAdds
/-
What is kept on one line by force.
-/
namespace Verif.Again
open Verif Verif.Syntax Verif.Lexer Verif.Print Verif.Grammar Verif.Parser Verif.Round

/-- what the parser forces onto one line is simple -/
def simpleForced : Expr → Bool
  | .call _ _ _ l _ fc _ => !fc || l.all isSimple
  | .tuple _ nb _ l _ fc _ => nb || !fc || l.all isSimple
  | _ => true

/-- both conditions at a node -/
def node (e : Expr) : Bool := simpleForced e && plainLoad e

/-- both conditions everywhere -/
abbrev Fo (e : Expr) : Prop := every node e = true

theorem everyL_mem {p : Expr → Bool} {l : List Expr} (h : everyL p l = true) : ∀ a ∈ l, every p a = true := by
  induction l with
  | nil => simp
  | cons x l ih =>
    intro a ha
    unfold everyL at h
    simp only [Bool.and_eq_true] at h
    rcases List.mem_cons.1 ha with rfl | ha
    · exact h.1
    · exact ih h.2 a ha

theorem every_load {c p m f t r fc} (h : Fo (.load c p m f t r fc)) : fc = true → (10 : UInt8) ∉ m.token ∧ (m.triple = true → (10 : UInt8) ∉ m.value) := by
  rintro rfl
  simp only [Fo, every, node, simpleForced, plainLoad, Bool.true_and, Bool.not_true, Bool.false_or, Bool.and_eq_true, Bool.or_eq_true, Bool.not_eq_true', List.contains_eq_mem, decide_eq_false_iff_not] at h
  refine ⟨h.1, fun ht => ?_⟩
  rcases h.2 with h2 | h2
  · rw [ht] at h2; cases h2
  · exact h2

theorem fo_call {c x s l e fc fm} (h : Fo (.call c x s l e fc fm)) : (fc = true → ∀ a ∈ l, isSimple a = true) ∧ Fo x ∧ ∀ a ∈ l, Fo a := by
  simp only [Fo, every, node, simpleForced, plainLoad, Bool.and_true, Bool.and_eq_true] at h
  refine ⟨?_, h.1.2, everyL_mem h.2⟩
  rintro rfl
  have := h.1.1
  simpa using this

theorem fo_tuple {c nb s l e fc fm} (h : Fo (.tuple c nb s l e fc fm)) : (nb = false → fc = true → ∀ a ∈ l, isSimple a = true) ∧ ∀ a ∈ l, Fo a := by
  simp only [Fo, every, node, simpleForced, plainLoad, Bool.and_true, Bool.and_eq_true] at h
  refine ⟨?_, everyL_mem h.2⟩
  rintro rfl rfl
  have := h.1
  simpa using this

section
variable {p : Expr → Bool}
theorem fo_list {c s l e fm} (h : every p (.list c s l e fm) = true) : ∀ a ∈ l, every p a = true := by
  simp only [every, Bool.and_eq_true] at h; exact everyL_mem h.2
theorem fo_set {c s l e fm} (h : every p (.set c s l e fm) = true) : ∀ a ∈ l, every p a = true := by
  simp only [every, Bool.and_eq_true] at h; exact everyL_mem h.2
theorem fo_dict {c s l e fm} (h : every p (.dict c s l e fm) = true) : ∀ a ∈ l, every p a = true := by
  simp only [every, Bool.and_eq_true] at h; exact everyL_mem h.2
theorem fo_paren {c s x e fm} (h : every p (.paren c s x e fm) = true) : every p x = true := by
  simp only [every, Bool.and_eq_true] at h; exact h.2
theorem fo_dot {c x s q n} (h : every p (.dot c x s q n) = true) : every p x = true := by
  simp only [every, Bool.and_eq_true] at h; exact h.2
theorem fo_index {c x s y e} (h : every p (.index c x s y e) = true) : every p x = true ∧ every p y = true := by
  simp only [every, Bool.and_eq_true] at h; exact ⟨h.1.2, h.2⟩
theorem fo_slice {c x s f c1 t c2 st e} (h : every p (.slice c x s f c1 t c2 st e) = true) : every p x = true ∧ every p f = true ∧ every p t = true ∧ every p st = true := by
  simp only [every, Bool.and_eq_true] at h; exact ⟨h.1.1.1.2, h.1.1.2, h.1.2, h.2⟩
theorem fo_unary {c s op x} (h : every p (.unary c s op x) = true) : every p x = true := by
  simp only [every, Bool.and_eq_true] at h; exact h.2
theorem fo_binary {c x s op lb y} (h : every p (.binary c x s op lb y) = true) : every p x = true ∧ every p y = true := by
  simp only [every, Bool.and_eq_true] at h; exact ⟨h.1.2, h.2⟩
theorem fo_assign {c x s op lb y} (h : every p (.assign c x s op lb y) = true) : every p x = true ∧ every p y = true := by
  simp only [every, Bool.and_eq_true] at h; exact ⟨h.1.2, h.2⟩
theorem fo_cond {c t i te el e} (h : every p (.cond c t i te el e) = true) : every p t = true ∧ every p te = true ∧ every p e = true := by
  simp only [every, Bool.and_eq_true] at h; exact ⟨h.1.1.2, h.1.2, h.2⟩
theorem fo_lambda {c s ps b} (h : every p (.lambda c s ps b) = true) : (∀ a ∈ ps, every p a = true) ∧ ∀ a ∈ b, every p a = true := by
  simp only [every, Bool.and_eq_true] at h; exact ⟨everyL_mem h.1.2, everyL_mem h.2⟩
theorem fo_compr {c cu s b cl fm e} (h : every p (.compr c cu s b cl fm e) = true) : every p b = true ∧ ∀ a ∈ cl, every p a = true := by
  simp only [every, Bool.and_eq_true] at h; exact ⟨h.1.2, everyL_mem h.2⟩
theorem fo_typed {c n t} (h : every p (.typedIdent c n t) = true) : every p t = true := by
  simp only [every, Bool.and_eq_true] at h; exact h.2
theorem fo_kv {c k s v} (h : every p (.keyValue c k s v) = true) : every p k = true ∧ every p v = true := by
  simp only [every, Bool.and_eq_true] at h; exact ⟨h.1.2, h.2⟩
theorem fo_forClause {c s v i x} (h : every p (.forClause c s v i x) = true) : every p v = true ∧ every p x = true := by
  simp only [every, Bool.and_eq_true] at h; exact ⟨h.1.2, h.2⟩
theorem fo_ifClause {c s x} (h : every p (.ifClause c s x) = true) : every p x = true := by
  simp only [every, Bool.and_eq_true] at h; exact h.2
theorem fo_def {c s n ps b cp a d t} (h : every p (.defS c s n ps b cp a d t) = true) : (∀ a ∈ ps, every p a = true) ∧ (∀ a ∈ b, every p a = true) ∧ every p t = true := by
  simp only [every, Bool.and_eq_true] at h; exact ⟨everyL_mem h.1.1.2, everyL_mem h.1.2, h.2⟩
theorem fo_return {c s x} (h : every p (.returnS c s x) = true) : every p x = true := by
  simp only [every, Bool.and_eq_true] at h; exact h.2
theorem fo_for {c s v x b} (h : every p (.forS c s v x b) = true) : every p v = true ∧ every p x = true ∧ ∀ a ∈ b, every p a = true := by
  simp only [every, Bool.and_eq_true] at h; exact ⟨h.1.1.2, h.1.2, everyL_mem h.2⟩
theorem fo_if {c s x t e f} (h : every p (.ifS c s x t e f) = true) : every p x = true ∧ (∀ a ∈ t, every p a = true) ∧ ∀ a ∈ f, every p a = true := by
  simp only [every, Bool.and_eq_true] at h; exact ⟨h.1.1.2, everyL_mem h.1.2, everyL_mem h.2⟩
end

end Verif.Again
