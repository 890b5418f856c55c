import Verif.Model.Macro
/-
The search of `IsMacro`, over an abstract graph of functions.
-/
namespace Verif.Macro
open Verif Verif.Syntax

/-- what a function is -/
inductive Kind where
  | yes | no | alias (g : Fn) | calls (l : List FunCall)

/-- according to the data of its file -/
def kindOf (src : Bytes → Bytes → Option Src) (f : Fn) : Kind :=
  if f.filename = nativeModule then (if nativeFunctions.contains f.name then .no else .yes)
  else
    let fd := analyzeFile (src f.pkg f.filename)
    match fd.aliases.lookup f.name with
    | some g => .alias g
    | none => if fd.rules.contains f.name then .yes else match fd.functions.lookup f.name with
      | none => .no
      | some l => .calls l

/-- one step: an alias or a call -/
def Edge (src : Bytes → Bytes → Option Src) (f g : Fn) : Prop :=
  kindOf src f = .alias g ∨ ∃ l, kindOf src f = .calls l ∧ ∃ c ∈ l, c.fn = g

/-- a rule is reached -/
inductive Reach (src : Bytes → Bytes → Option Src) : Fn → Prop
  | yes (f) : kindOf src f = .yes → Reach src f
  | edge (f g) : Edge src f g → Reach src g → Reach src f

/-- the known files are those of the reader -/
def FilesOk (src : Bytes → Bytes → Option Src) (rd : Reader) (st : St) : Prop :=
  ∀ p l, (∀ fd, st.files.lookup (p, l) = some fd → fd = analyzeFile (src p l)) ∧
    (st.files.lookup (p, l) = none → src p l = (rd.bind fun r => r p l))

variable {src : Bytes → Bytes → Option Src} {rd : Reader} {ord : Fn → List FunCall → List FunCall}

theorem filesOk_store {st : St} (h : FilesOk src rd st) (f r) : FilesOk src rd (store st f r) := h

theorem lookup_cons_eq {α β : Type} [BEq α] [LawfulBEq α] [DecidableEq α] (a : α) (b : β) (l : List (α × β)) (x : α) :
    List.lookup x ((a, b) :: l) = if x = a then some b else List.lookup x l := by
  rw [List.lookup]
  by_cases h : x = a
  · simp [h]
  · have : (x == a) = false := by simpa using h
    simp [h, this]

theorem getFileData_ok {st : St} (h : FilesOk src rd st) (p l : Bytes) :
    (getFileData rd st p l).1 = analyzeFile (src p l) ∧ FilesOk src rd (getFileData rd st p l).2 ∧ (getFileData rd st p l).2.cache = st.cache := by
  unfold getFileData
  split
  · rename_i fd hf
    exact ⟨(h p l).1 fd hf, h, rfl⟩
  · rename_i hf
    have hs := (h p l).2 hf
    have he : readData rd p l = analyzeFile (src p l) := by
      rw [hs]
      unfold readData
      cases rd <;> rfl
    dsimp only
    refine ⟨he, ?_, rfl⟩
    intro p' l'
    dsimp only
    rw [lookup_cons_eq]
    split
    · rename_i e
      cases e
      refine ⟨?_, by intro h; cases h⟩
      intro fd hfd
      injection hfd with hfd
      rw [← hfd, he]
    · exact h p' l'

/-- looking a function up after storing -/
theorem lookup_store (st : St) (f : Fn) (r : Report) (g : Fn) :
    (store st f r).cache.lookup g = if g = f then some r else st.cache.lookup g := by
  unfold store
  exact lookup_cons_eq _ _ _ _

/-- the function has been looked at -/
def Dom (st : St) (f : Fn) : Prop := st.cache.lookup f ≠ none

theorem dom_store {st : St} {f r g} : Dom (store st f r) g ↔ g = f ∨ Dom st g := by
  unfold Dom
  rw [lookup_store]
  split
  · rename_i h; simp [h]
  · rename_i h; simp [h]

/-- one call of `IsMacro`, by the kind of the function -/
theorem isMacro_succ {n : Nat} {st st' : St} {f : Fn} {r : Report} (hf : FilesOk src rd st) (h : isMacro rd ord (n + 1) st f = some (r, st')) :
    (st.cache.lookup f = some r ∧ st' = st) ∨
    (st.cache.lookup f = none ∧ ∃ st2, FilesOk src rd st2 ∧ st2.cache = (f, {}) :: st.cache ∧
      ((kindOf src f = .yes ∧ r.isMacro = true ∧ st' = store st2 f r) ∨
       (kindOf src f = .no ∧ r.isMacro = false ∧ st' = store st2 f r) ∨
       (∃ g q st3, kindOf src f = .alias g ∧ isMacro rd ord n st2 g = some (q, st3) ∧ r.isMacro = q.isMacro ∧ st' = store st3 f r) ∨
       (∃ l c st3, kindOf src f = .calls l ∧ firstMacro (isMacro rd ord n) st2 (prioritize st2 (ord f l)) = some (c, st3) ∧
          r.isMacro = c.isSome ∧ st' = store st3 f r))) := by
  unfold isMacro at h
  split at h
  · rename_i q hq
    injection h with h
    injection h with h1 h2
    subst h1; subst h2
    exact .inl ⟨hq, rfl⟩
  · rename_i hq
    refine .inr ⟨hq, ?_⟩
    dsimp only at h
    split at h
    · rename_i hn
      injection h with h
      injection h with h1 h2
      subst h1
      refine ⟨store st f {}, hf, rfl, ?_⟩
      unfold kindOf
      rw [if_pos hn]
      by_cases hc : nativeFunctions.contains f.name = true
      · refine .inr (.inl ⟨by rw [if_pos hc], by simpa using hc, h2.symm⟩)
      · refine .inl ⟨by rw [if_neg hc], by simpa using hc, h2.symm⟩
    · rename_i hn
      obtain ⟨d1, d2, d3⟩ := getFileData_ok (filesOk_store hf f {}) f.pkg f.filename
      refine ⟨_, d2, d3, ?_⟩
      rw [d1] at h
      unfold kindOf
      rw [if_neg hn]
      dsimp only
      split at h
      · rename_i g hg
        rw [hg]
        dsimp only
        split at h
        · cases h
        · rename_i q st3 hq3
          injection h with h
          injection h with h1 h2
          subst h1
          exact .inr (.inr (.inl ⟨g, q, st3, rfl, hq3, rfl, h2.symm⟩))
      · rename_i hg
        rw [hg]
        dsimp only
        split at h
        · rename_i hr
          injection h with h
          injection h with h1 h2
          subst h1
          exact .inl ⟨by rw [if_pos hr], rfl, h2.symm⟩
        · rename_i hr
          split at h
          · rename_i hl
            injection h with h
            injection h with h1 h2
            subst h1
            exact .inr (.inl ⟨by rw [if_neg hr, hl], rfl, h2.symm⟩)
          · rename_i l hl
            split at h
            · cases h
            · rename_i st3 hx
              injection h with h
              injection h with h1 h2
              subst h1
              exact .inr (.inr (.inr ⟨l, none, st3, by rw [if_neg hr, hl], hx, rfl, h2.symm⟩))
            · rename_i c st3 hx
              injection h with h
              injection h with h1 h2
              subst h1
              exact .inr (.inr (.inr ⟨l, some c, st3, by rw [if_neg hr, hl], hx, rfl, h2.symm⟩))

theorem mem_prioritize {st : St} {l : List FunCall} {c : FunCall} : c ∈ prioritize st l ↔ c ∈ l := by
  unfold prioritize
  dsimp only
  rw [List.mem_append, List.mem_filter, List.mem_filter]
  constructor
  · rintro (h | h) <;> exact h.1
  · intro h
    cases hk : ((st.files.lookup (c.fn.pkg, c.fn.filename)).isSome || decide (c.fn.filename = nativeModule))
    · exact .inr ⟨h, rfl⟩
    · exact .inl ⟨h, rfl⟩

/-- an order is a rearrangement -/
abbrev Orders (ord : Fn → List FunCall → List FunCall) : Prop := ∀ f l, (ord f l).Perm l

/-! ## Soundness -/

/-- positive entries are right -/
def Right (src : Bytes → Bytes → Option Src) (st : St) : Prop := ∀ f r, st.cache.lookup f = some r → r.isMacro = true → Reach src f

theorem right_store {st : St} {f : Fn} {r : Report} (h : Right src st) (hr : r.isMacro = true → Reach src f) : Right src (store st f r) := by
  intro g q hg hq
  rw [lookup_store] at hg
  split at hg
  · rename_i e
    subst e
    injection hg with hg
    subst hg
    exact hr hq
  · exact h g q hg hq

theorem firstMacro_sound {rec : St → Fn → Option (Report × St)}
    (H : ∀ st f r st', FilesOk src rd st → Right src st → rec st f = some (r, st') → FilesOk src rd st' ∧ Right src st' ∧ (r.isMacro = true → Reach src f)) :
    ∀ (l : List FunCall) (st : St) (c : Option FunCall) (st' : St), FilesOk src rd st → Right src st → firstMacro rec st l = some (c, st') →
      FilesOk src rd st' ∧ Right src st' ∧ ∀ d, c = some d → d ∈ l ∧ Reach src d.fn := by
  intro l
  induction l with
  | nil =>
    intro st c st' h1 h2 h
    unfold firstMacro at h
    injection h with h
    injection h with h3 h4
    subst h3; subst h4
    exact ⟨h1, h2, by intro d h; cases h⟩
  | cons x l ih =>
    intro st c st' h1 h2 h
    unfold firstMacro at h
    split at h
    · cases h
    · rename_i r st2 hr
      obtain ⟨a1, a2, a3⟩ := H _ _ _ _ h1 h2 hr
      split at h
      · rename_i hm
        injection h with h
        injection h with h3 h4
        subst h3; subst h4
        refine ⟨a1, a2, ?_⟩
        intro d hd
        injection hd with hd
        subst hd
        exact ⟨List.mem_cons_self, a3 hm⟩
      · obtain ⟨b1, b2, b3⟩ := ih _ _ _ a1 a2 h
        exact ⟨b1, b2, fun d hd => ⟨List.mem_cons_of_mem _ (b3 d hd).1, (b3 d hd).2⟩⟩

/-- what is found is there, whatever has been looked at before and in whatever order -/
theorem isMacro_sound (ho : Orders ord) : ∀ (n : Nat) (st : St) (f : Fn) (r : Report) (st' : St), FilesOk src rd st → Right src st →
    isMacro rd ord n st f = some (r, st') → FilesOk src rd st' ∧ Right src st' ∧ (r.isMacro = true → Reach src f) := by
  intro n
  induction n with
  | zero => intro st f r st' _ _ h; cases h
  | succ n ih =>
    intro st f r st' h1 h2 h
    rcases isMacro_succ h1 h with ⟨hc, rfl⟩ | ⟨hc, st2, g1, g2, hk⟩
    · exact ⟨h1, h2, h2 f r hc⟩
    have g3 : Right src st2 := by
      intro g q hg hq
      rw [g2, lookup_cons_eq] at hg
      split at hg
      · injection hg with hg; subst hg; cases hq
      · exact h2 g q hg hq
    rcases hk with ⟨k, hr, rfl⟩ | ⟨k, hr, rfl⟩ | ⟨g, q, st3, k, hx, hr, rfl⟩ | ⟨l, c, st3, k, hx, hr, rfl⟩
    · have := Reach.yes f k
      exact ⟨g1, right_store g3 (fun _ => this), fun _ => this⟩
    · refine ⟨g1, right_store g3 (fun h => ?_), fun h => ?_⟩ <;> (rw [hr] at h; cases h)
    · obtain ⟨a1, a2, a3⟩ := ih _ _ _ _ g1 g3 hx
      have : r.isMacro = true → Reach src f := fun h => .edge f g (.inl k) (a3 (hr ▸ h))
      exact ⟨a1, right_store a2 this, this⟩
    · obtain ⟨a1, a2, a3⟩ := firstMacro_sound (rd := rd) ih _ _ _ _ g1 g3 hx
      have : r.isMacro = true → Reach src f := by
        intro h
        rw [hr] at h
        cases c with
        | none => cases h
        | some d =>
          obtain ⟨m, e⟩ := a3 d rfl
          exact .edge f d.fn (.inr ⟨l, k, d, (ho f l).mem_iff.1 (mem_prioritize.1 m), rfl⟩) e
      exact ⟨a1, right_store a2 this, this⟩

/-! ## The first question is answered exactly -/

/-- nothing has been found yet -/
def Quiet (st : St) : Prop := ∀ f r, st.cache.lookup f = some r → r.isMacro = false

theorem quiet_store {st : St} {f : Fn} {r : Report} (h : Quiet st) (hr : r.isMacro = false) : Quiet (store st f r) := by
  intro g q hg
  rw [lookup_store] at hg
  split at hg
  · injection hg with hg; subst hg; exact hr
  · exact h g q hg

/-- nothing found: what has been looked at meanwhile is no rule, and so are its successors -/
structure Swept (src : Bytes → Bytes → Option Src) (st st' : St) : Prop where
  quiet : Quiet st'
  grow : ∀ g, Dom st g → Dom st' g
  fresh : ∀ g, Dom st' g → ¬ Dom st g → kindOf src g ≠ .yes ∧ ∀ k, Edge src g k → Dom st' k

theorem Swept.refl {st : St} (h : Quiet st) : Swept src st st := ⟨h, fun _ h => h, fun _ h h' => absurd h h'⟩

theorem Swept.trans {a b c : St} (h1 : Swept src a b) (h2 : Swept src b c) : Swept src a c := by
  refine ⟨h2.quiet, fun g h => h2.grow g (h1.grow g h), fun g hg hn => ?_⟩
  by_cases hb : Dom b g
  · obtain ⟨e1, e2⟩ := h1.fresh g hb hn
    exact ⟨e1, fun k hk => h2.grow k (e2 k hk)⟩
  · exact h2.fresh g hg hb

theorem firstMacro_none {rec : St → Fn → Option (Report × St)}
    (H : ∀ st f r st', FilesOk src rd st → Quiet st → rec st f = some (r, st') → FilesOk src rd st' ∧ (r.isMacro = false → Swept src st st' ∧ Dom st' f)) :
    ∀ (l : List FunCall) (st : St) (c : Option FunCall) (st' : St), FilesOk src rd st → Quiet st → firstMacro rec st l = some (c, st') →
      FilesOk src rd st' ∧ (c = none → Swept src st st' ∧ ∀ d ∈ l, Dom st' d.fn) := by
  intro l
  induction l with
  | nil =>
    intro st c st' h1 h2 h
    unfold firstMacro at h
    injection h with h
    injection h with h3 h4
    subst h3; subst h4
    exact ⟨h1, fun _ => ⟨.refl h2, by simp⟩⟩
  | cons x l ih =>
    intro st c st' h1 h2 h
    unfold firstMacro at h
    split at h
    · cases h
    · rename_i r st2 hr
      obtain ⟨a1, a2⟩ := H _ _ _ _ h1 h2 hr
      split at h
      · injection h with h
        injection h with h3 h4
        subst h3; subst h4
        exact ⟨a1, by intro h; cases h⟩
      · rename_i hm
        obtain ⟨a3, a4⟩ := a2 (by simpa using hm)
        obtain ⟨b1, b2⟩ := ih _ _ _ a1 a3.quiet h
        refine ⟨b1, fun hc => ?_⟩
        obtain ⟨b3, b4⟩ := b2 hc
        refine ⟨a3.trans b3, ?_⟩
        intro d hd
        rcases List.mem_cons.1 hd with rfl | hd
        · exact b3.grow _ a4
        · exact b4 d hd

/-- the entry of `f` is stored a second time -/
theorem swept_close {st st2 st3 : St} {f : Fn} {r : Report} (h2 : st2.cache = (f, {}) :: st.cache) (h : Swept src st2 st3) (hr : r.isMacro = false)
    (hy : kindOf src f ≠ .yes) (he : ∀ k, Edge src f k → Dom st3 k) : Swept src st (store st3 f r) ∧ Dom (store st3 f r) f := by
  have hd2 : ∀ g, Dom st2 g ↔ g = f ∨ Dom st g := by
    intro g
    unfold Dom
    rw [h2, lookup_cons_eq]
    split
    · rename_i e; simp [e]
    · rename_i e; simp [e]
  refine ⟨⟨quiet_store h.quiet hr, fun g hg => dom_store.2 (.inr (h.grow g ((hd2 g).2 (.inr hg)))), fun g hg hn => ?_⟩, dom_store.2 (.inl rfl)⟩
  by_cases e : g = f
  · subst e
    exact ⟨hy, fun k hk => dom_store.2 (.inr (he k hk))⟩
  · rcases dom_store.1 hg with e' | hg
    · exact absurd e' e
    · obtain ⟨e1, e2⟩ := h.fresh g hg (fun hg2 => by
        rcases (hd2 g).1 hg2 with e' | h'
        · exact e e'
        · exact hn h')
      exact ⟨e1, fun k hk => dom_store.2 (.inr (e2 k hk))⟩

theorem isMacro_false (ho : Orders ord) : ∀ (n : Nat) (st : St) (f : Fn) (r : Report) (st' : St), FilesOk src rd st → Quiet st →
    isMacro rd ord n st f = some (r, st') → FilesOk src rd st' ∧ (r.isMacro = false → Swept src st st' ∧ Dom st' f) := by
  intro n
  induction n with
  | zero => intro st f r st' _ _ h; cases h
  | succ n ih =>
    intro st f r st' h1 h2 h
    rcases isMacro_succ h1 h with ⟨hc, rfl⟩ | ⟨hc, st2, g1, g2, hk⟩
    · exact ⟨h1, fun _ => ⟨.refl h2, by unfold Dom; rw [hc]; simp⟩⟩
    have g3 : Quiet st2 := by
      intro g q hg
      rw [g2, lookup_cons_eq] at hg
      split at hg
      · injection hg with hg; subst hg; rfl
      · exact h2 g q hg
    rcases hk with ⟨k, hr, rfl⟩ | ⟨k, hr, rfl⟩ | ⟨g, q, st3, k, hx, hr, rfl⟩ | ⟨l, c, st3, k, hx, hr, rfl⟩
    · refine ⟨g1, fun h => ?_⟩
      rw [hr] at h; cases h
    · refine ⟨g1, fun hr => swept_close g2 (.refl g3) hr (by rw [k]; simp) ?_⟩
      rintro k' (e | ⟨l, e, _⟩) <;> (rw [k] at e; cases e)
    · obtain ⟨a1, a2⟩ := ih _ _ _ _ g1 g3 hx
      refine ⟨a1, fun h => ?_⟩
      obtain ⟨a3, a4⟩ := a2 (hr ▸ h)
      refine swept_close g2 a3 h (by rw [k]; simp) ?_
      rintro k' (e | ⟨l, e, _⟩)
      · rw [k] at e; cases e; exact a4
      · rw [k] at e; cases e
    · obtain ⟨a1, a2⟩ := firstMacro_none (src := src) (rd := rd) ih _ _ _ _ g1 g3 hx
      refine ⟨a1, fun h => ?_⟩
      obtain ⟨a3, a4⟩ := a2 (by rw [hr] at h; cases c with
        | none => rfl
        | some d => cases h)
      refine swept_close g2 a3 h (by rw [k]; simp) ?_
      rintro k' (e | ⟨l', e, c', hc', rfl⟩)
      · rw [k] at e; cases e
      · rw [k] at e
        cases e
        exact a4 c' (mem_prioritize.2 ((ho f _).mem_iff.2 hc'))

/-- with an empty cache, the answer is right -/
theorem isMacro_first (ho : Orders ord) {n : Nat} {st : St} {f : Fn} {r : Report} {st' : St} (hf : FilesOk src rd st) (hc : st.cache = [])
    (h : isMacro rd ord n st f = some (r, st')) : r.isMacro = true ↔ Reach src f := by
  have hq : Quiet st := by intro g q hg; rw [hc] at hg; cases hg
  have hR : Right src st := by intro g q hg; rw [hc] at hg; cases hg
  refine ⟨(isMacro_sound ho n st f r st' hf hR h).2.2, fun hr => ?_⟩
  cases hm : r.isMacro with
  | true => rfl
  | false =>
    exfalso
    obtain ⟨hs, hd⟩ := (isMacro_false ho n st f r st' hf hq h).2 hm
    have hn : ∀ g, ¬ Dom st g := by intro g hg; unfold Dom at hg; rw [hc] at hg; exact hg rfl
    have key : ∀ g, Reach src g → Dom st' g → False := by
      intro g hg
      induction hg with
      | yes g k => intro hd; exact (hs.fresh g hd (hn g)).1 k
      | edge g k e _ ih => intro hd; exact ih ((hs.fresh g hd (hn g)).2 k e)
    exact key f hr hd

/-! ## Without recursion every question is answered exactly -/

/-- functions on a low level have been classified correctly -/
def Exact (src : Bytes → Bytes → Option Src) (rank : Fn → Nat) (k : Nat) (st : St) : Prop :=
  ∀ f r, st.cache.lookup f = some r → rank f < k → (r.isMacro = true ↔ Reach src f)

/-- entries are old or right -/
def Kept (src : Bytes → Bytes → Option Src) (st st' : St) : Prop :=
  ∀ f r, st'.cache.lookup f = some r → st.cache.lookup f = some r ∨ (r.isMacro = true ↔ Reach src f)

theorem Kept.exact {rank : Fn → Nat} {k : Nat} {st st' : St} (h : Kept src st st') (he : Exact src rank k st) : Exact src rank k st' := by
  intro f r hf hr
  rcases h f r hf with h | h
  · exact he f r h hr
  · exact h

theorem Kept.trans {a b c : St} (h1 : Kept src a b) (h2 : Kept src b c) : Kept src a c := by
  intro f r hf
  rcases h2 f r hf with h | h
  · exact h1 f r h
  · exact .inr h

theorem firstMacro_exact {rank : Fn → Nat} {k : Nat} {rec : St → Fn → Option (Report × St)}
    (H : ∀ st f r st', rank f < k → FilesOk src rd st → Exact src rank (rank f + 1) st → rec st f = some (r, st') →
      FilesOk src rd st' ∧ Kept src st st' ∧ (r.isMacro = true ↔ Reach src f)) :
    ∀ (l : List FunCall) (st : St) (c : Option FunCall) (st' : St), (∀ d ∈ l, rank d.fn < k) → FilesOk src rd st → Exact src rank k st →
      firstMacro rec st l = some (c, st') → FilesOk src rd st' ∧ Kept src st st' ∧ (c.isSome = true ↔ ∃ d ∈ l, Reach src d.fn) := by
  intro l
  induction l with
  | nil =>
    intro st c st' _ h1 h2 h
    unfold firstMacro at h
    injection h with h
    injection h with h3 h4
    subst h3; subst h4
    exact ⟨h1, fun f r hf => .inl hf, by simp⟩
  | cons x l ih =>
    intro st c st' hl h1 h2 h
    unfold firstMacro at h
    have hx := hl x List.mem_cons_self
    split at h
    · cases h
    · rename_i r st2 hr
      obtain ⟨a1, a2, a3⟩ := H _ _ _ _ hx h1 (fun f r hf hk => h2 f r hf (by omega)) hr
      split at h
      · rename_i hm
        injection h with h
        injection h with h3 h4
        subst h3; subst h4
        exact ⟨a1, a2, fun _ => ⟨x, List.mem_cons_self, a3.1 hm⟩, fun _ => rfl⟩
      · rename_i hm
        obtain ⟨b1, b2, b3⟩ := ih _ _ _ (fun d hd => hl d (List.mem_cons_of_mem _ hd)) a1 (a2.exact h2) h
        refine ⟨b1, a2.trans b2, b3.trans ⟨?_, ?_⟩⟩
        · rintro ⟨d, hd, hr⟩; exact ⟨d, List.mem_cons_of_mem _ hd, hr⟩
        · rintro ⟨d, hd, hq⟩
          rcases List.mem_cons.1 hd with rfl | hd
          · exact absurd (a3.2 hq) hm
          · exact ⟨d, hd, hq⟩

theorem isMacro_exact (ho : Orders ord) {rank : Fn → Nat} (hrank : ∀ f g, Edge src f g → rank g < rank f) :
    ∀ (n : Nat) (st : St) (f : Fn) (r : Report) (st' : St), FilesOk src rd st → Exact src rank (rank f + 1) st →
    isMacro rd ord n st f = some (r, st') → FilesOk src rd st' ∧ Kept src st st' ∧ (r.isMacro = true ↔ Reach src f) := by
  intro n
  induction n with
  | zero => intro st f r st' _ _ h; cases h
  | succ n ih =>
    intro st f r st' h1 h2 h
    rcases isMacro_succ h1 h with ⟨hc, rfl⟩ | ⟨hc, st2, g1, g2, hk⟩
    · exact ⟨h1, fun f r hf => .inl hf, h2 f r hc (by omega)⟩
    have g3 : ∀ k, k ≤ rank f → Exact src rank k st2 := by
      intro k hk g q hg hr
      rw [g2, lookup_cons_eq] at hg
      split at hg
      · rename_i e; rw [e] at hr; omega
      · exact h2 g q hg (by omega)
    have close : ∀ {st3 : St}, Kept src st2 st3 → (r.isMacro = true ↔ Reach src f) → Kept src st (store st3 f r) := by
      intro st3 hk hr g q hg
      rw [lookup_store] at hg
      split at hg
      · rename_i e
        subst e
        injection hg with hg
        subst hg
        exact .inr hr
      · rename_i e
        rcases hk g q hg with h | h
        · rw [g2, lookup_cons_eq, if_neg e] at h
          exact .inl h
        · exact .inr h
    have noRefl : Kept src st2 st2 := fun f r hf => .inl hf
    rcases hk with ⟨k, hr, rfl⟩ | ⟨k, hr, rfl⟩ | ⟨g, q, st3, k, hx, hr, rfl⟩ | ⟨l, c, st3, k, hx, hr, rfl⟩
    · have : r.isMacro = true ↔ Reach src f := ⟨fun _ => .yes f k, fun _ => hr⟩
      exact ⟨g1, close noRefl this, this⟩
    · have : r.isMacro = true ↔ Reach src f := by
        refine ⟨fun h => (by rw [hr] at h; cases h), fun h => ?_⟩
        cases h with
        | yes _ k' => rw [k] at k'; cases k'
        | edge _ g e _ => rcases e with e | ⟨l, e, _⟩ <;> (rw [k] at e; cases e)
      exact ⟨g1, close noRefl this, this⟩
    · have hg : rank g < rank f := hrank f g (.inl k)
      obtain ⟨a1, a2, a3⟩ := ih _ _ _ _ g1 (g3 _ (by omega)) hx
      have : r.isMacro = true ↔ Reach src f := by
        rw [hr, a3]
        refine ⟨fun h => .edge f g (.inl k) h, fun h => ?_⟩
        cases h with
        | yes _ k' => rw [k] at k'; cases k'
        | edge _ g' e h => rcases e with e | ⟨l, e, _⟩ <;> (rw [k] at e; cases e); exact h
      exact ⟨a1, close a2 this, this⟩
    · have hl : ∀ d ∈ prioritize st2 (ord f l), rank d.fn < rank f := by
        intro d hd
        exact hrank f d.fn (.inr ⟨l, k, d, (ho f l).mem_iff.1 (mem_prioritize.1 hd), rfl⟩)
      obtain ⟨a1, a2, a3⟩ := firstMacro_exact (src := src) (rd := rd) (rank := rank) (k := rank f) (fun st g r st' _ => ih st g r st') _ _ _ _ hl g1 (g3 _ (Nat.le_refl _)) hx
      have : r.isMacro = true ↔ Reach src f := by
        rw [hr, a3]
        constructor
        · rintro ⟨d, hd, h⟩
          exact .edge f d.fn (.inr ⟨l, k, d, (ho f l).mem_iff.1 (mem_prioritize.1 hd), rfl⟩) h
        · intro h
          cases h with
          | yes _ k' => rw [k] at k'; cases k'
          | edge _ g' e h =>
            rcases e with e | ⟨l', e, d, hd, rfl⟩
            · rw [k] at e; cases e
            · rw [k] at e; cases e
              exact ⟨d, mem_prioritize.2 ((ho f _).mem_iff.2 hd), h⟩
      exact ⟨a1, close a2 this, this⟩

/-! ## Termination -/

/-- how many functions of the list have not been looked at -/
def todo (U : List Fn) (st : St) : Nat := (U.filter fun f => (st.cache.lookup f).isNone).length

theorem todo_le {U : List Fn} {a b : St} (h : ∀ g, Dom a g → Dom b g) : todo U b ≤ todo U a := by
  unfold todo
  induction U with
  | nil => simp
  | cons x U ih =>
    rw [List.filter_cons, List.filter_cons]
    by_cases hx : (b.cache.lookup x).isNone = true
    · have : (a.cache.lookup x).isNone = true := by
        cases ha : a.cache.lookup x with
        | none => rfl
        | some r =>
          have := h x (by unfold Dom; rw [ha]; simp)
          unfold Dom at this
          simp only [Option.isNone_iff_eq_none] at hx
          exact absurd hx this
      rw [if_pos hx, if_pos this]
      simp only [List.length_cons]
      omega
    · rw [if_neg hx]
      split
      · simp only [List.length_cons]; omega
      · exact ih

theorem todo_lt {U : List Fn} {a b : St} {f : Fn} (h : ∀ g, Dom a g → Dom b g) (hf : f ∈ U) (ha : a.cache.lookup f = none) (hb : Dom b f) : todo U b < todo U a := by
  induction U with
  | nil => cases hf
  | cons x U ih =>
    unfold todo
    rw [List.filter_cons, List.filter_cons]
    have hle := todo_le (U := U) h
    unfold todo at hle
    by_cases e : x = f
    · subst e
      have hb' : (b.cache.lookup x).isNone = false := by
        cases hh : b.cache.lookup x with
        | none => exact absurd hh hb
        | some r => rfl
      rw [if_neg (by simp [hb']), if_pos (by simp [ha])]
      simp only [List.length_cons]
      omega
    · have hf' : f ∈ U := by
        rcases List.mem_cons.1 hf with e' | h'
        · exact absurd e'.symm e
        · exact h'
      have := ih hf'
      unfold todo at this
      by_cases hx : (b.cache.lookup x).isNone = true
      · have : (a.cache.lookup x).isNone = true := by
          cases ha : a.cache.lookup x with
          | none => rfl
          | some r =>
            have := h x (by unfold Dom; rw [ha]; simp)
            unfold Dom at this
            simp only [Option.isNone_iff_eq_none] at hx
            exact absurd hx this
        rw [if_pos hx, if_pos this]
        simp only [List.length_cons]
        omega
      · rw [if_neg hx]
        split
        · simp only [List.length_cons]; omega
        · omega

theorem firstMacro_total {rec : St → Fn → Option (Report × St)} {P : Fn → Prop} {m : Nat} {U : List Fn}
    (H : ∀ st f, FilesOk src rd st → P f → todo U st ≤ m → ∃ r st', rec st f = some (r, st') ∧ FilesOk src rd st' ∧ ∀ g, Dom st g → Dom st' g) :
    ∀ (l : List FunCall) (st : St), FilesOk src rd st → (∀ d ∈ l, P d.fn) → todo U st ≤ m →
      ∃ c st', firstMacro rec st l = some (c, st') ∧ FilesOk src rd st' ∧ ∀ g, Dom st g → Dom st' g := by
  intro l
  induction l with
  | nil => intro st h1 _ _; exact ⟨none, st, rfl, h1, fun _ h => h⟩
  | cons x l ih =>
    intro st h1 hl hm
    obtain ⟨r, st2, e, h2, h3⟩ := H st x.fn h1 (hl x List.mem_cons_self) hm
    unfold firstMacro
    rw [e]
    dsimp only
    split
    · exact ⟨_, _, rfl, h2, h3⟩
    · obtain ⟨c, st3, e3, h4, h5⟩ := ih st2 h2 (fun d hd => hl d (List.mem_cons_of_mem _ hd)) (Nat.le_trans (todo_le h3) hm)
      exact ⟨c, st3, e3, h4, fun g hg => h5 g (h3 g hg)⟩

theorem isMacro_total (ho : Orders ord) {U : List Fn} (hU : ∀ f ∈ U, ∀ g, Edge src f g → g ∈ U) :
    ∀ (n : Nat) (st : St) (f : Fn), FilesOk src rd st → f ∈ U → todo U st < n →
    ∃ r st', isMacro rd ord n st f = some (r, st') ∧ FilesOk src rd st' ∧ ∀ g, Dom st g → Dom st' g := by
  intro n
  induction n with
  | zero => intro st f _ _ h; omega
  | succ n ih =>
    intro st f h1 hf hn
    have dm : ∀ (s : St) (r : Report) (g : Fn), Dom s g → Dom (store s f r) g := fun s r g h => dom_store.2 (.inr h)
    unfold isMacro
    split
    · rename_i q hq
      exact ⟨q, st, rfl, h1, fun _ h => h⟩
    · rename_i hq
      dsimp only
      split
      · exact ⟨_, _, rfl, h1, fun g h => dm _ _ _ (dm _ _ _ h)⟩
      · rename_i hnat
        obtain ⟨d1, d2, d3⟩ := getFileData_ok (filesOk_store h1 f {}) f.pkg f.filename
        have hk0 : kindOf src f = match (analyzeFile (src f.pkg f.filename)).aliases.lookup f.name with
          | some g => .alias g
          | none => if (analyzeFile (src f.pkg f.filename)).rules.contains f.name then .yes else match (analyzeFile (src f.pkg f.filename)).functions.lookup f.name with
            | none => .no
            | some l => .calls l := by
          unfold kindOf
          rw [if_neg hnat]
        rw [d1]
        generalize getFileData rd (store st f {}) f.pkg f.filename = gd at d1 d2 d3
        have dg : ∀ g, Dom st g → Dom gd.2 g := by
          intro g hg
          unfold Dom
          rw [d3]
          exact dm _ _ _ hg
        have hlt : todo U gd.2 < todo U st := todo_lt dg hf hq (by unfold Dom; rw [d3, lookup_store]; simp)
        split
        · rename_i g hg
          rw [hg] at hk0
          obtain ⟨r, st3, e, h3, h4⟩ := ih gd.2 g d2 (hU f hf g (.inl hk0)) (by omega)
          rw [e]
          exact ⟨_, _, rfl, h3, fun k hk => dm _ _ _ (h4 k (dg k hk))⟩
        · rename_i hg
          rw [hg] at hk0
          dsimp only at hk0
          split
          · exact ⟨_, _, rfl, d2, fun k hk => dm _ _ _ (dg k hk)⟩
          · rename_i hr
            rw [if_neg hr] at hk0
            split
            · exact ⟨_, _, rfl, d2, fun k hk => dm _ _ _ (dg k hk)⟩
            · rename_i l hl
              rw [hl] at hk0
              obtain ⟨c, st3, e, h3, h4⟩ := firstMacro_total (src := src) (rd := rd) (rec := isMacro rd ord n) (P := fun g => g ∈ U) (m := todo U gd.2) (U := U)
                (fun s g hs hg ht => ih s g hs hg (by omega)) (prioritize gd.2 (ord f l)) gd.2 d2
                (fun d hd => hU f hf d.fn (.inr ⟨l, hk0, d, (ho f l).mem_iff.1 (mem_prioritize.1 hd), rfl⟩)) (Nat.le_refl _)
              rw [e]
              cases c with
              | none => exact ⟨_, _, rfl, h3, fun k hk => dm _ _ _ (h4 k (dg k hk))⟩
              | some d => exact ⟨_, _, rfl, h3, fun k hk => dm _ _ _ (h4 k (dg k hk))⟩

end Verif.Macro
