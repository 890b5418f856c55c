import Verif.Props.Skylark
/-
C77, continued: which comments and docstrings the fix reaches.
-/
namespace Verif.Skylark
open Verif Verif.Syntax Verif.Walk

/-! ### specification -/

/-- the node has a comment, not one that disables the docstring check, that the rewriting changes -/
def Outdated (rw : Bytes → Bytes) (v : Expr) : Prop :=
  ∃ c ∈ v.comments.before ++ v.comments.suffix ++ v.comments.after, (¬ ∃ a b, c.token = a ++ b!"disable=skylark-docstring" ++ b) ∧ rw c.token ≠ c.token

/-- `x` is `v` or inside it -/
inductive Inside : Expr → Expr → Prop
  | here (v) : Inside v v
  | child (v x w) : x ∈ slots v → Inside x w → Inside v w

/-- the comments of a node with outdated ones rewritten -/
def Updated (rw : Bytes → Bytes) (l l' : List Comment) : Prop :=
  l'.length = l.length ∧ ∀ (i : Nat) c, l[i]? = some c →
    (¬ (∃ a b, c.token = a ++ b!"disable=skylark-docstring" ++ b) ∧ l'[i]? = some { c with token := rw c.token }) ∨
    ((∃ a b, c.token = a ++ b!"disable=skylark-docstring" ++ b) ∧ l'[i]? = some c)

/-- `w` is `v`, where nodes (not necessarily all) have their comments updated -/
inductive Rewritten (rw : Bytes → Bytes) : Expr → Expr → Prop
  | same (v) : Rewritten rw v v
  | update (v w c') : Rewritten rw v w → w.comments = v.comments → Updated rw v.comments.before c'.before → Updated rw v.comments.suffix c'.suffix →
      Updated rw v.comments.after c'.after → Rewritten rw v (w.setComments c')
  | inner (v ks) : ks.length = (slots v).length → Forall2 (Rewritten rw) (slots v) ks → Rewritten rw v (withSlots v ks)

/-- An outdated node whose replacement is lost: the file itself, an entry of a dictionary, a clause of a comprehension, a part of a load statement, or
a node that is held in a field (not in a list) of another outdated node. -/
def Lost (rw : Bytes → Bytes) (f x : Expr) : Prop :=
  Outdated rw x ∧ (x = f ∨ ∃ v p, Inside f v ∧ (x, p) ∈ (slots v).zip (places v) ∧ (p = .loc ∨ (p = .field ∧ Outdated rw v)))

/-! ### proofs -/

theorem outdated_iff (rw : Bytes → Bytes) (v : Expr) : modified rw v = true ↔ Outdated rw v := by
  unfold modified Outdated
  simp only [List.any_eq_true, Bool.and_eq_true, Bool.not_eq_true', decide_eq_true_eq, ← Verif.Props.Warn.contains_iff, Bool.not_eq_true]

theorem slots_set (c : Comments) (v : Expr) : slots (v.setComments c) = slots v := by cases v <;> rfl

theorem comments_set (c : Comments) (v : Expr) (h : v ≠ .nil) : (v.setComments c).comments = c := by
  cases v <;> first | rfl | exact absurd rfl h

theorem places_length (v : Expr) : (places v).length = (slots v).length := by
  cases v <;> simp [places, slots]

theorem reportedN_succ (rw : Bytes → Bytes) (n : Nat) (v : Expr) :
    reportedN rw (n + 1) v = (if modified rw v then [v] else []) ++ (slots v).flatMap (reportedN rw n) := by
  unfold reportedN
  split
  next h => rw [Cosmetic.isNil_slots v h]; simp [modified, Expr.comments, slots]
  next => rfl

theorem reportedN_iff (rw : Bytes → Bytes) (n : Nat) (v x : Expr) (hn : size v ≤ n) : x ∈ reportedN rw n v ↔ Inside v x ∧ Outdated rw x := by
  induction n generalizing v with
  | zero => have := size_pos v; omega
  | succ n ih =>
    rw [reportedN_succ]
    simp only [List.mem_append, List.mem_flatMap]
    constructor
    · rintro (h | ⟨y, hy, h⟩)
      · split at h
        next hm => simp at h; subst h; exact ⟨.here _, (outdated_iff rw x).1 hm⟩
        next => cases h
      · obtain ⟨h1, h2⟩ := (ih y (by have := size_slot_lt hy; omega)).1 h
        exact ⟨.child _ _ _ hy h1, h2⟩
    · rintro ⟨h1, h2⟩
      cases h1 with
      | here => left; rw [if_pos ((outdated_iff rw x).2 h2)]; exact List.mem_singleton.2 rfl
      | child _ y _ hy h => exact .inr ⟨y, hy, (ih y (by have := size_slot_lt hy; omega)).2 ⟨h, h2⟩⟩

/-- **C77**: exactly the nodes with an outdated comment are reported. -/
theorem C77_comments_reported (rw : Bytes → Bytes) (f x : Expr) : x ∈ reported rw f ↔ Inside f x ∧ Outdated rw x :=
  reportedN_iff rw _ f x (Nat.le_refl _)

theorem updated_map (rw : Bytes → Bytes) (l : List Comment) : Updated rw l (l.map (newComment rw)) := by
  refine ⟨by simp, fun i c h => ?_⟩
  rw [List.getElem?_map, h]
  simp only [Option.map_some, newComment, ← Verif.Props.Warn.contains_iff]
  by_cases hc : contains c.token b!"disable=skylark-docstring" = true
  · right; simp [hc]
  · left; simp [hc]

/-- the recursion into the slots -/
def inner (rw : Bytes → Bytes) (n : Nat) (rep : Bool) (v : Expr) : List Expr :=
  ((slots v).zip (places v)).map fun q => fixN rw n (match q.2 with
    | .field => !rep
    | .elem => true
    | .loc => false) q.1

theorem fixN_load (rw : Bytes → Bytes) (n : Nat) (eff : Bool) (c p m f t r b) : fixN rw (n + 1) eff (.load c p m f t r b) =
    if eff && modified rw (.load c p m f t r b) then (Expr.load c p m f t r b).setComments (newComments rw c) else .load c p m f t r b := rfl

theorem fixN_other (rw : Bytes → Bytes) (n : Nat) (eff : Bool) (v : Expr) (h : ∀ c p m f t r b, v ≠ .load c p m f t r b) : fixN rw (n + 1) eff v =
    if eff && modified rw v then (withSlots v (inner rw n (eff && modified rw v) v)).setComments (newComments rw v.comments)
    else withSlots v (inner rw n (eff && modified rw v) v) := by
  cases v with
  | load c p m f t r b => exact absurd rfl (h c p m f t r b)
  | nil => simp [fixN, modified, Expr.comments, withSlots]
  | _ => rfl

theorem inner_length (rw : Bytes → Bytes) (n : Nat) (rep : Bool) (v : Expr) : (inner rw n rep v).length = (slots v).length := by
  simp [inner, places_length]

theorem loadOr (v : Expr) : (∃ c p m f t r b, v = .load c p m f t r b) ∨ ∀ c p m f t r b, v ≠ .load c p m f t r b := by
  cases v with
  | load c p m f t r b => exact .inl ⟨c, p, m, f, t, r, b, rfl⟩
  | _ => exact .inr fun _ _ _ _ _ _ _ => by simp

theorem forall2_inner {R : Expr → Expr → Prop} {g : Expr × Place → Expr} : ∀ (l : List Expr) (k : List Place), k.length = l.length →
    (∀ q ∈ l.zip k, R q.1 (g q)) → Forall2 R l ((l.zip k).map g)
  | [], [], _, _ => .nil
  | x :: l, p :: k, hk, h => .cons (h (x, p) (by simp)) (forall2_inner l k (by simpa using hk) fun q hq => h q (by simp [hq]))
  | [], _ :: _, hk, _ => by simp at hk
  | _ :: _, [], hk, _ => by simp at hk

theorem fixN_rewritten (rw : Bytes → Bytes) (n : Nat) (eff : Bool) (v : Expr) : Rewritten rw v (fixN rw n eff v) := by
  induction n generalizing eff v with
  | zero => exact .same v
  | succ n ih =>
    have upd : ∀ w, Rewritten rw v w → w.comments = v.comments → Rewritten rw v (w.setComments (newComments rw v.comments)) :=
      fun w h1 h2 => .update v w _ h1 h2 (updated_map ..) (updated_map ..) (updated_map ..)
    rcases loadOr v with ⟨c, p, m, f, t, r, b, rfl⟩ | hl
    · rw [fixN_load]
      split
      · exact upd _ (.same _) rfl
      · exact .same _
    · have hin : ∀ rep, Rewritten rw v (withSlots v (inner rw n rep v)) := fun rep =>
        .inner v _ (inner_length ..) (forall2_inner _ _ (places_length v) fun q _ => ih _ q.1)
      rw [fixN_other rw n eff v hl]
      split
      · exact upd _ (hin _) (Cosmetic.comments_withSlots _ _ (inner_length ..))
      · exact hin _

/-- **C77**: the fix changes nothing but outdated comments. -/
theorem C77_comments_safe (rw : Bytes → Bytes) (f : Expr) : Rewritten rw f (fixComments rw f) := fixN_rewritten ..

theorem modified_new (rw : Bytes → Bytes) (v : Expr) (c : Comments)
    (hrw : ∀ x ∈ c.before ++ c.suffix ++ c.after, rw (rw x.token) = rw x.token) : modified rw (v.setComments (newComments rw c)) = false := by
  by_cases hv : v = .nil
  · subst hv; rfl
  · unfold modified
    rw [comments_set _ _ hv]
    rw [List.any_eq_false]
    intro x hx
    have : ∃ y ∈ c.before ++ c.suffix ++ c.after, x = newComment rw y := by
      simp only [newComments, List.mem_append, List.mem_map] at hx
      rcases hx with (⟨y, hy, rfl⟩ | ⟨y, hy, rfl⟩) | ⟨y, hy, rfl⟩ <;> exact ⟨y, by simp [hy], rfl⟩
    obtain ⟨y, hy, rfl⟩ := this
    unfold newComment
    split
    next h => simp [h]
    next => simp [hrw y hy]

theorem modified_withSlots (rw : Bytes → Bytes) (v : Expr) (k : List Expr) (hk : k.length = (slots v).length) :
    modified rw (withSlots v k) = modified rw v := by
  unfold modified
  rw [Cosmetic.comments_withSlots v k hk]

theorem load_slot_leaf {x : Expr} {c p m f t r b} (h : x ∈ slots (.load c p m f t r b)) : slots x = [] := by
  have leaf : ∀ f t : List IdentN, ∀ x ∈ interleave f t, ∃ i, x = .ident i := by
    intro f
    induction f with
    | nil => intro t x hx; cases t <;> simp [interleave] at hx
    | cons a f ihf =>
      intro t x hx
      cases t with
      | nil => simp [interleave] at hx
      | cons b t =>
        simp only [interleave, List.mem_cons] at hx
        rcases hx with rfl | rfl | hx
        · exact ⟨_, rfl⟩
        · exact ⟨_, rfl⟩
        · exact ihf t x hx
  simp only [slots, List.mem_cons] at h
  rcases h with rfl | h
  · rfl
  · obtain ⟨i, rfl⟩ := leaf f t x h; rfl

theorem mem_zip_of_mem {α β : Type} {x : α} : ∀ {l : List α} {k : List β}, k.length = l.length → x ∈ l → ∃ p, (x, p) ∈ l.zip k
  | [], _, _, h => by cases h
  | _ :: _, [], hk, _ => by simp at hk
  | a :: l, b :: k, hk, h => by
    rcases List.mem_cons.1 h with rfl | h
    · exact ⟨b, by simp⟩
    · obtain ⟨p, hp⟩ := mem_zip_of_mem (k := k) (by simpa using hk) h
      exact ⟨p, by simp [hp]⟩

theorem reportedN_fixN (rw : Bytes → Bytes) (m n : Nat) (eff : Bool) (v : Expr) (hm : size v ≤ m)
    (hrw : ∀ x, Inside v x → ∀ c ∈ x.comments.before ++ x.comments.suffix ++ x.comments.after, rw (rw c.token) = rw c.token)
    (hroot : Outdated rw v → eff = true)
    (h : ∀ w x p, Inside v w → (x, p) ∈ (slots w).zip (places w) → Outdated rw x → p ≠ .loc ∧ (p = .field → ¬ Outdated rw w)) :
    reportedN rw n (fixN rw m eff v) = [] := by
  induction m generalizing n eff v with
  | zero => have := size_pos v; omega
  | succ m ih =>
    cases n with
    | zero => rfl
    | succ n =>
      have kids : ∀ q ∈ (slots v).zip (places v), reportedN rw n (fixN rw m (match q.2 with
          | .field => !(eff && modified rw v)
          | .elem => true
          | .loc => false) q.1) = [] := by
        rintro ⟨x, p⟩ hq
        have hx : x ∈ slots v := (List.of_mem_zip hq).1
        refine ih n _ x (by have := size_slot_lt hx; omega) (fun y hy => hrw y (.child _ _ _ hx hy)) ?_ fun w y p' hw => h w y p' (.child _ _ _ hx hw)
        intro ho
        obtain ⟨h1, h2⟩ := h v x p (.here v) hq ho
        cases p with
        | loc => exact absurd rfl h1
        | elem => rfl
        | field =>
          have := h2 rfl
          rw [← outdated_iff] at this
          simp [this]
      rw [reportedN_succ, List.append_eq_nil_iff, List.flatMap_eq_nil_iff]
      rcases loadOr v with ⟨c, p, mo, f, t, r, b, rfl⟩ | hl
      · constructor
        · rw [fixN_load]
          split
          · rw [modified_new rw _ c (hrw _ (.here _))]; rfl
          next he =>
            split
            next hmod => exact absurd (by rw [hroot ((outdated_iff _ _).1 hmod), hmod]; rfl) he
            next => rfl
        · intro x hx
          have hx' : x ∈ slots (.load c p mo f t r b) := by
            rw [fixN_load] at hx
            split at hx
            · rwa [slots_set] at hx
            · exact hx
          obtain ⟨pl, hq⟩ := mem_zip_of_mem (places_length (.load c p mo f t r b)) hx'
          have hpl : pl = .loc := by
            have := (List.of_mem_zip hq).2
            simp only [places, List.mem_map] at this
            obtain ⟨_, _, rfl⟩ := this
            rfl
          have hno : ¬ Outdated rw x := fun ho => (h _ x pl (.here _) hq ho).1 hpl
          cases n with
          | zero => rfl
          | succ n =>
            rw [reportedN_succ, load_slot_leaf hx']
            rw [← outdated_iff] at hno
            simp [hno]
      · rw [fixN_other rw m eff v hl]
        constructor
        · split
          · rw [modified_new rw _ _ (hrw _ (.here _))]; rfl
          next he =>
            rw [modified_withSlots rw v _ (inner_length ..)]
            split
            next hmod => exact absurd (by rw [hroot ((outdated_iff _ _).1 hmod), hmod]; rfl) he
            next => rfl
        · intro x hx
          have hx' : x ∈ inner rw m (eff && modified rw v) v := by
            split at hx
            · rw [slots_set, slots_withSlots v _ (Cosmetic.fits_of_length hl (inner_length ..))] at hx; exact hx
            · rw [slots_withSlots v _ (Cosmetic.fits_of_length hl (inner_length ..))] at hx; exact hx
          simp only [inner, List.mem_map] at hx'
          obtain ⟨q, hq, rfl⟩ := hx'
          exact kids q hq

/-- **C77**: if no replacement is lost, nothing is reported after the fix (if rewriting the comments a second time would change nothing). -/
theorem C77_comments_complete (rw : Bytes → Bytes) (f : Expr)
    (hrw : ∀ x, Inside f x → ∀ c ∈ x.comments.before ++ x.comments.suffix ++ x.comments.after, rw (rw c.token) = rw c.token) (h : ∀ x, ¬ Lost rw f x) :
    reported rw (fixComments rw f) = [] := by
  refine reportedN_fixN rw _ _ false f (Nat.le_refl _) hrw ?_ ?_
  · intro ho; exact absurd ⟨ho, .inl rfl⟩ (h f)
  · intro w x p hw hq ho
    refine ⟨?_, ?_⟩
    · rintro rfl; exact h x ⟨ho, .inr ⟨w, _, hw, hq, .inl rfl⟩⟩
    · rintro rfl how; exact h x ⟨ho, .inr ⟨w, _, hw, hq, .inr ⟨rfl, how⟩⟩⟩

/-! ### lost replacements -/

/-- the replacement, as a total function -/
def total (s : Bytes) : Bytes := ((replaceSkylark s).getD (s, false)).1

def old : Comments := { before := [{ token := b!"# skylark" }] }
def new : Comments := { before := [{ token := b!"# starlark" }] }

/-- a comment at a statement and one at an element of a list are both rewritten -/
example : fixComments total (.file {} [.list old {} [.literal old {} b!"1"] {} true]) = .file {} [.list new {} [.literal new {} b!"1"] {} true] := rfl

/-- **C77**: a comment at an entry of a dictionary is reported and never rewritten. -/
theorem C77_dict_entry_lost :
    fixComments total (.file {} [.dict {} {} [.keyValue old (.literal {} {} b!"1") {} (.literal {} {} b!"2")] {} true]) =
      .file {} [.dict {} {} [.keyValue old (.literal {} {} b!"1") {} (.literal {} {} b!"2")] {} true] ∧
    reported total (.file {} [.dict {} {} [.keyValue old (.literal {} {} b!"1") {} (.literal {} {} b!"2")] {} true]) =
      [.keyValue old (.literal {} {} b!"1") {} (.literal {} {} b!"2")] := ⟨rfl, rfl⟩

/-- **C77**: if a keyword argument and its value both have such a comment, only the first is rewritten (the second when the fix is applied again). -/
theorem C77_nested_lost :
    fixComments total (.file {} [.call {} (.ident { name := b!"f" }) {} [.assign old (.ident { name := b!"a" }) {} b!"=" false (.literal old {} b!"1")] {} false true]) =
      .file {} [.call {} (.ident { name := b!"f" }) {} [.assign new (.ident { name := b!"a" }) {} b!"=" false (.literal old {} b!"1")] {} false true] ∧
    fixComments total (fixComments total (.file {} [.call {} (.ident { name := b!"f" }) {}
        [.assign old (.ident { name := b!"a" }) {} b!"=" false (.literal old {} b!"1")] {} false true])) =
      .file {} [.call {} (.ident { name := b!"f" }) {} [.assign new (.ident { name := b!"a" }) {} b!"=" false (.literal new {} b!"1")] {} false true] := ⟨rfl, rfl⟩

/-! ### docstrings -/

/-- the docstring of a list of statements: the first statement that is no comment, if it is a string -/
def Docstring (l : List Expr) (i : Nat) (s : StringN) : Prop :=
  l[i]? = some (.string s) ∧ ∀ j e, j < i → l[j]? = some e → e = .nil ∨ ∃ c p, e = .commentBlock c p

theorem docIndex_shift (k i : Nat) (l : List Expr) : docIndex (k + i) l = (docIndex i l).map (k + ·) := by
  induction l generalizing i with
  | nil => rfl
  | cons e l ih => cases e <;> first | rfl | (simp only [docIndex]; rw [Nat.add_assoc, ih])

theorem docIndex_iff (l : List Expr) (i : Nat) : docIndex 0 l = some i ↔ ∃ s, Docstring l i s := by
  induction l generalizing i with
  | nil => simp [docIndex, Docstring]
  | cons e l ih =>
    have skip : (e = .nil ∨ ∃ c p, e = .commentBlock c p) → (docIndex 1 l = some i ↔ ∃ s, Docstring (e :: l) i s) := by
      intro he
      rw [show (1 : Nat) = 1 + 0 from rfl, docIndex_shift, Option.map_eq_some_iff]
      constructor
      · rintro ⟨j, hj, rfl⟩
        obtain ⟨s, h1, h2⟩ := (ih j).1 hj
        refine ⟨s, by rw [Nat.add_comm]; simpa using h1, fun k x hk hx => ?_⟩
        cases k with
        | zero => simp at hx; subst hx; exact he
        | succ k => exact h2 k x (by omega) (by simpa using hx)
      · rintro ⟨s, h1, h2⟩
        cases i with
        | zero => simp at h1; subst h1; rcases he with h | ⟨c, p, h⟩ <;> cases h
        | succ i =>
          refine ⟨i, (ih i).2 ⟨s, by simpa using h1, fun k x hk hx => h2 (k + 1) x (by omega) (by simpa using hx)⟩, by omega⟩
    have stop : (¬ (e = .nil ∨ ∃ c p, e = .commentBlock c p)) → (∀ s, e ≠ .string s) → ¬ ∃ s, Docstring (e :: l) i s := by
      rintro h1 h2 ⟨s, h3, h4⟩
      cases i with
      | zero => simp at h3; exact h2 s h3
      | succ i => exact h1 (h4 0 e (by omega) (by simp))
    cases e with
    | nil => exact skip (.inl rfl)
    | commentBlock c p => exact skip (.inr ⟨c, p, rfl⟩)
    | string s =>
      simp only [docIndex, Option.some.injEq]
      constructor
      · rintro rfl; exact ⟨s, by simp, fun j e hj => by omega⟩
      · rintro ⟨s', h1, h2⟩
        cases i with
        | zero => rfl
        | succ i => rcases h2 0 (.string s) (by omega) (by simp) with h | ⟨_, _, h⟩ <;> cases h
    | _ => exact ⟨fun h => (by cases h), fun h => absurd h (stop (by simp) (by simp))⟩

/-- **C77**: a list of statements is changed exactly if it has a docstring that the rewriting changes, and then only the value of the docstring. -/
theorem C77_docstring (rw : Bytes → Bytes) (l l' : List Expr) : checkDocstring rw l = some l' ↔
    ∃ i s, Docstring l i s ∧ rw s.value ≠ s.value ∧ l' = l.set i (.string { s with value := rw s.value }) := by
  unfold checkDocstring
  cases hd : docIndex 0 l with
  | none =>
    simp only [reduceCtorEq, false_iff]
    rintro ⟨i, s, h, _⟩
    have := (docIndex_iff l i).2 ⟨s, h⟩
    rw [hd] at this; cases this
  | some i =>
    obtain ⟨s, hs⟩ := (docIndex_iff l i).1 hd
    simp only [hs.1]
    constructor
    · intro h
      split at h
      · cases h
      next hne => cases h; exact ⟨i, s, hs, hne, rfl⟩
    · rintro ⟨i', s', h, hne, rfl⟩
      have := (docIndex_iff l i').2 ⟨s', h⟩
      rw [hd] at this; cases this
      have := hs.1.symm.trans h.1
      cases this
      rw [if_neg hne]

example : checkDocstring total [.commentBlock {} {}, .string { value := b!"A Skylark macro" }, .string { value := b!"skylark" }] =
    some [.commentBlock {} {}, .string { value := b!"A Starlark macro" }, .string { value := b!"skylark" }] := rfl

end Verif.Skylark
