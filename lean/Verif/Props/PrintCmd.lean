import Verif.Model.PrintCmd
import Verif.Props.Rules
import Verif.Props.Fix
/-
C103: the command print of buildozer. `Named` and `OfKind` are those of C35, `FirstDef` that of C27.
-/
namespace Verif.PrintCommand
open Verif Verif.Syntax Verif.Edit Verif.PrintCmd Verif.Walk Verif.Props.Rules Verif.Props.Attr

/-- what is printed of the value of an attribute: the text of a string (quoted if there is a space in it), the texts of a list of strings in
brackets, a name or a number as it is, and anything else formatted -/
inductive Value (W : World) : Expr → Bytes → Prop
  | string (s : StringN) : 32 ∉ s.value → Value W (.string s) s.value
  | quoted (s : StringN) : 32 ∈ s.value → Value W (.string s) (W.quoted s.value)
  | strings (c p l e m vs) : Forall2 (fun x v => ∃ s : StringN, x = .string s ∧ s.value = v) l vs →
      Value W (.list c p l e m) (b!"[" ++ joinWith 32 vs ++ b!"]")
  | ident (i : IdentN) : Value W (.ident i) i.name
  | literal (c p t) : Value W (.literal c p t) t
  | other (v) : v ≠ .nil → (∀ s, v ≠ .string s) → (∀ i, v ≠ .ident i) → (∀ c p t, v ≠ .literal c p t) →
      (∀ c p l e m, v = .list c p l e m → ∃ x ∈ l, ∀ s, x ≠ .string s) → Value W v (W.fmt v)

/-- the words with a meaning of their own -/
def special : List Bytes := [b!"kind", b!"name", b!"label", b!"rule", b!"startline", b!"endline", b!"path", b!"attrs"]

/-- the names of the attributes, in the order of the arguments -/
inductive Names : List Expr → List Bytes → Prop
  | nil : Names [] []
  | attr (c) (i : IdentN) (p o lb r l k) : Names l k → Names (.assign c (.ident i) p o lb r :: l) (i.name :: k)
  | other (x l k) : (∀ n, ¬ Defines n x) → Names l k → Names (x :: l) k

/-- What the documentation says is printed for the word `w`. -/
inductive Prints (W : World) (call : Expr) : Bytes → Bytes → Prop
  | kind (k) : OfKind k call → Prints W call b!"kind" k
  | name (n) : Named W.dir W.stmts n call → Prints W call b!"name" n
  | label (n) : Named W.dir W.stmts n call → n ≠ [] → n ≠ pathBase W.pkg → Prints W call b!"label" (b!"//" ++ W.pkg ++ b!":" ++ n)
  | shortLabel (n) : Named W.dir W.stmts n call → n ≠ [] → n = pathBase W.pkg → Prints W call b!"label" (b!"//" ++ W.pkg)
  | rule : Prints W call b!"rule" (W.fmt call)
  | startline (c x p l e a b) : call = .call c x p l e a b → Prints W call b!"startline" (W.dec p.line)
  | endline (c x p l e a b) : call = .call c x p l e a b → Prints W call b!"endline" (W.dec e.pos.line)
  | path : Prints W call b!"path" W.path
  | attrs (c x p l e a b k) : call = .call c x p l e a b → Names l k → Prints W call b!"attrs" (b!"[" ++ joinWith 32 k ++ b!"]")
  | value (w c x p l e a b pre d post t) : w ∉ special → call = .call c x p l e a b → FirstDef l w pre d post → Value W (valueOf d) t →
      Prints W call w t
  | missing (w c x p l e a b) : w ∉ special → call = .call c x p l e a b → (∀ d ∈ l, ¬ Defines w d) → Prints W call w b!"(missing)"

/-- The line printed for a rule: what is printed for each word, separated by spaces. But if the label of a rule without a name is asked for,
nothing is printed. -/
def Line (W : World) (call : Expr) (words : List Bytes) (line : Bytes) : Prop :=
  (b!"label" ∈ words ∧ Named W.dir W.stmts [] call ∧ line = []) ∨
  (¬(b!"label" ∈ words ∧ Named W.dir W.stmts [] call) ∧ ∃ ts, Forall2 (Prints W call) words ts ∧ line = joinWith 32 ts ++ [10])

theorem value_ok (W : World) (v : Expr) (hv : v ≠ .nil) : Value W v (fieldText W (valueField W v)) := by
  unfold valueField
  split
  · exact absurd rfl hv
  · exact .literal ..
  · exact .ident _
  · rename_i s
    show Value W (.string s) (if true && s.value.contains 32 then W.quoted s.value else s.value)
    by_cases h : 32 ∈ s.value
    · rw [if_pos (by simpa using h)]; exact .quoted s h
    · rw [if_neg (by simpa using h)]; exact .string s h
  · rename_i c p l e m
    cases hs : Fix.stringValues l with
    | some vs => exact .strings _ _ _ _ _ _ ((Props.Fix.stringValues_iff l vs).1 hs)
    | none =>
      refine .other _ (fun h => nomatch h) (fun _ h => nomatch h) (fun _ h => nomatch h) (fun _ _ _ h => nomatch h) ?_
      intro c' p' l' e' m' h; cases h
      induction l with
      | nil => cases hs
      | cons x l ih =>
        by_cases hx : ∃ s, x = .string s
        · obtain ⟨s, rfl⟩ := hx
          rw [Fix.stringValues] at hs
          have : Fix.stringValues l = none := by
            cases h : Fix.stringValues l with
            | none => rfl
            | some _ => rw [h] at hs; cases hs
          obtain ⟨y, hy, hn⟩ := ih (fun h => nomatch h) this
          exact ⟨y, .tail _ hy, hn⟩
        · exact ⟨x, .head _, fun s h => hx ⟨s, h⟩⟩
  · rename_i h1 h2 h3 h4 h5
    exact .other _ h1 (fun s h => h4 s h) (fun i h => h3 i h) (fun c p t h => h2 c p t h) (fun c p l e m h => absurd h (h5 c p l e m))

theorem names_ok : ∀ l, Names l (attrKeys l)
  | [] => .nil
  | x :: l => by
    unfold attrKeys
    split
    · rename_i h; cases h
    · rename_i h; cases h; exact .attr _ _ _ _ _ _ _ _ (names_ok l)
    · rename_i h1 h2
      obtain ⟨rfl, rfl⟩ := List.cons.inj h2
      refine .other _ _ _ ?_ (names_ok l)
      rintro n ⟨c, i, p, o, lb, r, rfl, _⟩
      exact h1 _ _ _ _ _ _ rfl

theorem value_ne_nil {l : List Expr} {w : Bytes} {pre : List Expr} {d : Expr} {post : List Expr} (hl : ∀ x ∈ l, ∀ c y p o b r, x = .assign c y p o b r → r ≠ .nil)
    (h : FirstDef l w pre d post) : valueOf d ≠ .nil := by
  obtain ⟨rfl, ⟨c, i, p, o, lb, r, rfl, _⟩, _⟩ := h
  exact hl (.assign c (.ident i) p o lb r) (by simp) _ _ _ _ _ r rfl

theorem field_ok (W : World) (c x p l e a b w) (hl : ∀ y ∈ l, ∀ c z p o b r, y = .assign c z p o b r → r ≠ .nil) :
    (field W c x p l e a b w = none ↔ w = b!"label" ∧ Named W.dir W.stmts [] (.call c x p l e a b)) ∧
    (∀ f, field W c x p l e a b w = some f → Prints W (.call c x p l e a b) w (fieldText W f)) := by
  have hn := (ruleName_named W.dir W.stmts (ruleName (implicitRuleName W.dir W.stmts) x l) c x p l e a b).1 rfl
  have h0 := ruleName_named W.dir W.stmts [] c x p l e a b
  unfold field
  simp only
  by_cases h1 : w = b!"kind"
  · subst h1
    refine ⟨⟨nofun, fun h => absurd h.1 (by decide)⟩, fun f hf => ?_⟩
    cases hf
    exact .kind _ ((C35_kind c x p l e a b _).1 rfl)
  rw [if_neg h1]
  by_cases h2 : w = b!"name"
  · subst h2
    refine ⟨⟨nofun, fun h => absurd h.1 (by decide)⟩, fun f hf => ?_⟩
    cases hf
    exact .name _ hn
  rw [if_neg h2]
  by_cases h3 : w = b!"label"
  · subst h3
    rw [if_pos rfl]
    by_cases hz : ruleName (implicitRuleName W.dir W.stmts) x l = []
    · rw [if_neg (by simpa using hz)]
      exact ⟨⟨fun _ => ⟨rfl, h0.1 hz⟩, fun _ => rfl⟩, nofun⟩
    · rw [if_pos hz]
      refine ⟨⟨nofun, fun h => absurd (h0.2 h.2) hz⟩, fun f hf => ?_⟩
      cases hf
      simp only [fieldText, Bool.false_and, Bool.false_eq_true, if_false, Labels.format]
      rw [if_neg (fun h => hz h.1.symm)]
      by_cases hb : ruleName (implicitRuleName W.dir W.stmts) x l = pathBase W.pkg
      · have := Prints.shortLabel (W := W) (call := .call c x p l e a b) _ hn hz hb
        simp only [ne_eq, not_true_eq_false, if_false, hb] at this ⊢
        simpa using this
      · have := Prints.label (W := W) (call := .call c x p l e a b) _ hn hz hb
        simp only [ne_eq, not_true_eq_false, if_false, hb, not_false_eq_true, if_true] at this ⊢
        simpa using this
  rw [if_neg h3]
  refine ⟨⟨fun h => ?_, fun h => absurd h.1 h3⟩, fun f hf => ?_⟩
  · repeat (split at h; cases h)
    cases h
  · by_cases h4 : w = b!"rule"
    · rw [if_pos h4] at hf; cases hf; subst h4; exact .rule
    rw [if_neg h4] at hf
    by_cases h5 : w = b!"startline"
    · rw [if_pos h5] at hf; cases hf; subst h5; exact .startline _ _ _ _ _ _ _ rfl
    rw [if_neg h5] at hf
    by_cases h6 : w = b!"endline"
    · rw [if_pos h6] at hf; cases hf; subst h6; exact .endline _ _ _ _ _ _ _ rfl
    rw [if_neg h6] at hf
    by_cases h7 : w = b!"path"
    · rw [if_pos h7] at hf; cases hf; subst h7; exact .path
    rw [if_neg h7] at hf
    by_cases h8 : w = b!"attrs"
    · rw [if_pos h8] at hf; cases hf; subst h8; exact .attrs _ _ _ _ _ _ _ _ rfl (names_ok l)
    rw [if_neg h8] at hf
    cases hf
    have hs : w ∉ special := by simp [special, h1, h2, h3, h4, h5, h6, h7, h8]
    rcases exists_first w l with h | ⟨pre, d, post, h⟩
    · rw [(C27_get l w).2 h]
      exact .missing _ _ _ _ _ _ _ _ hs rfl h
    · rw [(C27_get l w).1 _ _ _ h]
      exact .value _ _ _ _ _ _ _ _ _ _ _ _ hs rfl h (value_ok W _ (value_ne_nil hl h))

theorem fields_ok (W : World) (call : Expr) (f : Bytes → Option Field) (N : Prop) (h : ∀ w, (f w = none ↔ w = b!"label" ∧ N) ∧
      ∀ v, f w = some v → Prints W call w (fieldText W v)) : ∀ words,
    (b!"label" ∈ words ∧ N ∧ fields f words = none) ∨
    (¬(b!"label" ∈ words ∧ N) ∧ ∃ r, fields f words = some r ∧ Forall2 (Prints W call) words (r.map (fieldText W)))
  | [] => .inr ⟨by simp, [], rfl, .nil⟩
  | w :: l => by
    unfold fields
    cases hw : f w with
    | none =>
      obtain ⟨rfl, hN⟩ := (h w).1.1 hw
      exact .inl ⟨.head _, hN, rfl⟩
    | some v =>
      rcases fields_ok W call f N h l with ⟨h1, h2, h3⟩ | ⟨h1, r, h3, h4⟩
      · exact .inl ⟨.tail _ h1, h2, by simp [h3]⟩
      · refine .inr ⟨?_, v :: r, by simp [h3], .cons ((h w).2 v hw) h4⟩
        rintro ⟨hm, hN⟩
        rcases List.mem_cons.1 hm with rfl | hm
        · rw [(h _).1.2 ⟨rfl, hN⟩] at hw; cases hw
        · exact h1 ⟨hm, hN⟩

/-- **C103.** `print WORDS` prints one line for a rule, with what the documentation says for every word, in the order of the words; without
words, the name and the kind. (Every argument `x = v` the parser builds has a value.) -/
theorem C103_print (W : World) (c x p l e a b) (words : List Bytes) (hl : ∀ y ∈ l, ∀ c z p o b r, y = .assign c z p o b r → r ≠ .nil) :
    Line W (.call c x p l e a b) (if words = [] then [b!"name", b!"kind"] else words)
      (printRecord W (cmdPrint W (.call c x p l e a b) words)) := by
  unfold cmdPrint
  simp only
  generalize hw : (if words = [] then [b!"name", b!"kind"] else words) = ws
  have hne : ws ≠ [] := by subst hw; split <;> simp_all
  rcases fields_ok W (.call c x p l e a b) _ _ (field_ok W c x p l e a b · hl) ws with ⟨h1, h2, h3⟩ | ⟨h1, r, h3, h4⟩
  · rw [h3]; exact .inl ⟨h1, h2, rfl⟩
  · rw [h3]
    refine .inr ⟨h1, _, h4, ?_⟩
    have : r ≠ [] := by rintro rfl; cases h4; exact hne rfl
    simp only [printRecord, Option.getD_some]
    rw [if_neg (by simpa using this)]

/-- the attributes a rule `r(name = "x y", srcs = ["a", "b"], n = 1)` in the package `p` -/
def exWorld : World := { fmt := fun _ => b!"?", dec := fun _ => b!"7", quoted := fun t => b!"\"" ++ t ++ b!"\"", pkg := b!"p", path := b!"p/BUILD", dir := none, stmts := [] }
def exStr (t : Bytes) : Expr := .string { value := t }
def exAttr (n : Bytes) (v : Expr) : Expr := .assign {} (.ident { name := n }) {} b!"=" false v
def exCall (l : List Expr) : Expr := .call {} (.ident { name := b!"r" }) {} l {} false false
example : printRecord exWorld (cmdPrint exWorld (exCall [exAttr b!"name" (exStr b!"x"), exAttr b!"t" (exStr b!"x y"),
      exAttr b!"srcs" (.list {} {} [exStr b!"a", exStr b!"b"] {} false), exAttr b!"n" (.literal {} {} b!"1")])
      [b!"label", b!"t", b!"srcs", b!"n", b!"m", b!"kind", b!"attrs"]) = b!"//p:x \"x y\" [a b] 1 (missing) r [name t srcs n]\n" := rfl
/-- nothing is printed if the label of a rule without a name is asked for -/
example : printRecord exWorld (cmdPrint exWorld (exCall [exAttr b!"n" (exStr b!"v")]) [b!"n", b!"label"]) = [] := rfl
example : ∀ y ∈ [exAttr b!"n" (exStr b!"v")], ∀ c z p o b r, y = .assign c z p o b r → r ≠ .nil := by
  intro y hy c z p o b r he
  rw [List.mem_singleton.1 hy] at he
  cases he; nofun

end Verif.PrintCommand
