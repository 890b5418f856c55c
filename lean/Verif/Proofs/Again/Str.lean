import Verif.Props.Quote
import Verif.Proofs.Again.Base
/-
The text printed for a string is printed again as it is.
-/
namespace Verif.Again
open Verif Verif.Quote Verif.Scan Verif.Props.Quote

theorem escaping_ascii : ∀ (s : Bytes), (∀ b ∈ s, b < 0x80) → isCorrectEscaping s ≠ none := by
  intro s
  fun_induction isCorrectEscaping s with
  | case1 => intro _ h; cases h
  | case2 c rest hc ih => intro hs; exact ih (fun b hb => hs b (by simp [hb]))
  | case3 => intro _ h; cases h
  | case4 c hc d rest' hd he ih => intro hs; exact ih (fun b hb => hs b (by simp [hb]))
  | case5 => intro _ h; cases h
  | case6 => intro _ h; cases h
  | case7 c hc d rest' hd hl => intro hs; exact absurd (hs d (by simp)) hd

theorem quote_head (s : Bytes) (t : Bool) : (quote s t).head? = some 34 := by
  cases t <;> rfl

theorem hasSuffix_quote {X : Bytes} : Quote.hasSuffix (X ++ [34]) b!"'" = false := by
  cases h : Quote.hasSuffix (X ++ [34]) b!"'" with
  | false => rfl
  | true =>
    simp only [Quote.hasSuffix, List.isSuffixOf_iff_suffix] at h
    obtain ⟨Y, hY⟩ := h
    have := congrArg List.getLast? hY
    simp [List.getLast?_append] at this

/-- printing the text again -/
theorem print_again {tok value out : Bytes} {triple : Bool} (htok : tok = [] ∨ LexedToken tok) (h : printString tok value triple = some out) :
    printString out value triple = some out := by
  have hg := (C03_print_string tok value triple out htok h).1
  have hcond : (unquote out).err = false ∧ (unquote out).s = value ∧ (unquote out).triple = triple := by rw [hg]; exact ⟨rfl, rfl, rfl⟩
  have hq : printString (quote value triple) value triple = some (quote value triple) := by
    have hg := (quote_good value triple).1
    unfold printString
    simp only
    rw [if_pos (by rw [hg]; exact ⟨rfl, rfl, rfl⟩), quote_head, if_neg (by decide), if_pos (by simp)]
    split
    · rename_i hn
      exact absurd hn (escaping_ascii _ (fun b hb => by
        rcases C02_quote_ascii value triple b hb with h | ⟨_, rfl⟩
        · exact h.2
        · decide))
    · rfl
    · rfl
  have hraw : ∀ X, out = 114 :: (X ++ [34]) → printString out value triple = some out := by
    intro X hX
    unfold printString
    simp only
    rw [if_pos hcond, if_pos (by rw [hX]; rfl), if_neg (by rw [hX, ← List.cons_append, hasSuffix_quote]; simp)]
  have hsame : ∀ {u}, printString tok value triple = some u → u = tok → printString u value triple = some u := by
    intro u h e; subst e; exact h
  have h0 := h
  unfold printString at h
  simp only at h
  split at h
  · split at h
    · split at h
      · split at h
        · split at h
          · cases h
          · refine hraw (34 :: 34 :: 34 :: ((tok.drop 4).take (tok.length - 7) ++ [34, 34])) ?_
            injection h with h; rw [← h]; simp
        · split at h
          · cases h
          · refine hraw (34 :: ((tok.drop 2).take (tok.length - 3))) ?_
            injection h with h; rw [← h]; simp
      · injection h with h; exact hsame h0 h.symm
    · split at h
      · split at h
        · cases h
        · injection h with h; exact hsame h0 h.symm
        · injection h with h; subst h; exact hq
      · injection h with h; subst h; exact hq
  · injection h with h; subst h; exact hq

theorem escByte_nl {t : Bool} : ∀ c : UInt8, c ≠ 10 → ∀ b ∈ escByte t c, b ≠ 10 := by
  have key : ∀ t : Bool, ∀ n : Fin 256, n ≠ 10 → ((escByte t (UInt8.ofNat n)).all (· != 10)) = true := by decide +kernel
  intro c hc b hb
  have h := key t ⟨c.toNat, c.toNat_lt⟩ (fun e => hc (by
    have := congrArg Fin.val e
    exact UInt8.toNat_inj.1 this))
  simp only [UInt8.ofNat_toNat] at h
  have := List.all_eq_true.1 h b hb
  simpa using this

theorem quoteBody_nl {t : Bool} (s : Bytes) (h : (10 : UInt8) ∉ s) : (10 : UInt8) ∉ quoteBody t s := by
  fun_induction quoteBody t s with
  | case1 => exact h
  | case2 c rest hp ih =>
    intro hb
    have hc : c ≠ 10 := fun e => h (by simp [e])
    simp only [List.mem_cons] at hb
    rcases hb with hb | hb | hb
    · exact hc hb.symm
    · exact hc hb.symm
    · exact ih (fun h' => h (by simp [h'])) hb
  | case3 c d rest hd hp ih =>
    intro hb
    have hc : c ≠ 10 := fun e => h (by simp [e])
    rcases List.mem_cons.1 hb with hb | hb
    · exact hc hb.symm
    · exact ih (fun h' => h (by simp at h'; simp [h'])) hb
  | case4 c hp => intro hb; simp at hb; exact h (by simp [hb])
  | case5 c rest hp ih =>
    intro hb
    rcases List.mem_append.1 hb with hb | hb
    · exact escByte_nl c (fun e => h (by simp [e])) _ hb rfl
    · exact ih (fun h' => h (by simp [h'])) hb

theorem quote_nl {s : Bytes} {t : Bool} (h : t = true → (10 : UInt8) ∉ s) : nl (quote s t) = 0 := by
  unfold nl
  rw [List.count_eq_zero]
  cases t with
  | false =>
    intro hb
    rcases C02_quote_ascii s false 10 hb with h | h
    · exact absurd h.1 (by decide)
    · exact absurd h.1 (by decide)
  | true =>
    intro hb
    simp only [quote, List.mem_append, if_true] at hb
    rcases hb with (hb | hb) | hb
    · revert hb; decide
    · exact quoteBody_nl s (h rfl) hb
    · revert hb; decide

/-- on one line -/
theorem print_nl {tok value out : Bytes} {triple : Bool} (h : printString tok value triple = some out) (h1 : (10 : UInt8) ∉ tok) (h2 : triple = true → (10 : UInt8) ∉ value) : nl out = 0 := by
  have hq := quote_nl (s := value) (t := triple) h2
  have ht : nl tok = 0 := List.count_eq_zero.2 h1
  have hsub : ∀ a b : Nat, nl ((tok.drop a).take b) = 0 := by
    intro a b
    refine List.count_eq_zero.2 (fun hb => h1 ?_)
    exact List.mem_of_mem_drop (List.mem_of_mem_take hb)
  unfold printString at h
  simp only at h
  split at h
  · split at h
    · split at h
      · split at h
        · split at h
          · cases h
          · injection h with h; rw [← h, nl_append, nl_append, hsub]; rfl
        · split at h
          · cases h
          · injection h with h; rw [← h, nl_append, nl_append, hsub]; rfl
      · injection h with h; rw [← h]; exact ht
    · split at h
      · split at h
        · cases h
        · injection h with h; rw [← h]; exact ht
        · injection h with h; rw [← h]; exact hq
      · injection h with h; rw [← h]; exact hq
  · injection h with h; rw [← h]; exact hq

end Verif.Again
