import Verif.Model.Buildifier
/-
C40: reading in parallel, processing in order. C41: what happens to one file in each mode. C42: flags. C57: file types.
-/
namespace Verif.Props.Buildifier
open Verif Verif.Buildifier

/-! ### C40 -/

section C40
variable {N : Type}

/-- the contents a file should end up with: those that processing its original contents writes, or the original ones -/
def rewritten (fs0 : N → Option Bytes) (work : N → Bytes → Option Bytes) (f : N) : Option Bytes :=
  match fs0 f with
  | none => none
  | some d => match work f d with
    | none => some d
    | some d' => some d'

/-- what holds of each reader -/
def ReaderOk (files : List N) (w : Nat) (fs0 : N → Option Bytes) (count i : Nat) (r : Reader N) : Prop :=
  ∃ b, b % w = i ∧ count ≤ b ∧ b < count + w ∧
    (match r.chan with
      | none => r.next = b
      | some q => r.next = b + w ∧ files[b]? = some q.file ∧ (files.Nodup → q.data = fs0 q.file)) ∧
    (∀ q, r.hold = some q → files[r.next]? = some q.file ∧ (files.Nodup → q.data = fs0 q.file))

structure Inv (files : List N) (w : Nat) (work : N → Bytes → Option Bytes) (fs0 : N → Option Bytes) (s : State N) : Prop where
  noPhase : s.phaseError = false
  le : s.count ≤ files.length
  readers : ∀ i, i < w → ReaderOk files w fs0 s.count i (s.readers i)
  order : s.processed.map (·.file) = files.take s.count
  data : files.Nodup → ∀ q ∈ s.processed, q.data = fs0 q.file
  todo : files.Nodup → ∀ j f, s.count ≤ j → files[j]? = some f → s.fs f = fs0 f
  done : files.Nodup → ∀ j f, j < s.count → files[j]? = some f → s.fs f = rewritten fs0 work f
  others : ∀ f, f ∉ files → s.fs f = fs0 f

theorem inv_start (files : List N) (w : Nat) (hw : 1 ≤ w) (work : N → Bytes → Option Bytes) (fs0 : N → Option Bytes) :
    Inv files w work fs0 (start fs0) := by
  refine ⟨rfl, Nat.zero_le _, fun i hi => ?_, rfl, (fun _ q h => nomatch h), fun _ _ _ _ _ => rfl, fun _ j _ h => absurd h (Nat.not_lt_zero j), fun _ _ => rfl⟩
  exact ⟨i, Nat.mod_eq_of_lt hi, Nat.zero_le _, by show i < 0 + w; omega, rfl, (fun q h => nomatch h)⟩

theorem set_same (f : Nat → Reader N) (i : Nat) (r : Reader N) : setReader f i r i = r := if_pos rfl
theorem set_other (f : Nat → Reader N) (i k : Nat) (r : Reader N) (h : k ≠ i) : setReader f i r k = f k := if_neg h

theorem writeTo_other (fs : N → Option Bytes) (n m : N) (d : Option Bytes) (h : m ≠ n) : writeTo fs n d m = fs m := by
  cases d with
  | none => rfl
  | some d => simp [writeTo, h]

theorem writeTo_rewritten (fs fs0 : N → Option Bytes) (work : N → Bytes → Option Bytes) (n : N) (h : fs n = fs0 n) :
    writeTo fs n ((fs0 n).bind (work n)) n = rewritten fs0 work n := by
  unfold rewritten
  cases h0 : fs0 n with
  | none => rw [h0] at h; exact h
  | some d =>
    simp only [Option.bind_some]
    cases work n d with
    | none => rw [h0] at h; exact h
    | some d' => simp [writeTo]

theorem nodup_inj {l : List N} (hn : l.Nodup) {i j : Nat} (hi : i < l.length) (hj : j < l.length) (h : l[i] = l[j]) : i = j := by
  have hp := List.pairwise_iff_getElem.mp hn
  rcases Nat.lt_trichotomy i j with h1 | h1 | h1
  · exact absurd h (hp i j hi hj h1)
  · exact h1
  · exact absurd h.symm (hp j i hj hi h1)

theorem mod_unique (w a b : Nat) (h : a % w = b % w) (h1 : a ≤ b) (h2 : b < a + w) : b = a := by
  have ha := Nat.div_add_mod a w
  have hb := Nat.div_add_mod b w
  have hle : a / w ≤ b / w := Nat.div_le_div_right h1
  have : ¬ (a / w + 1 ≤ b / w) := by
    intro hlt
    have := Nat.mul_le_mul_left w hlt
    rw [Nat.mul_add] at this
    omega
  have heq : a / w = b / w := by omega
  rw [heq] at ha
  omega

theorem inv_step (files : List N) (w : Nat) (hw : 1 ≤ w) (work : N → Bytes → Option Bytes) (fs0 : N → Option Bytes) (s t : State N)
    (hi : Inv files w work fs0 s) (h : Step files w work s t) : Inv files w work fs0 t := by
  obtain ⟨hph, hle, hrd, hord, hdata, htodo, hdone, hoth⟩ := hi
  cases h with
  | read i file hiw hhold hf =>
    refine ⟨hph, hle, fun k hk => ?_, hord, hdata, htodo, hdone, hoth⟩
    dsimp only
    by_cases hki : k = i
    · subst hki
      rw [set_same]
      obtain ⟨b, h1, h2, h3, h4, _⟩ := hrd k hk
      refine ⟨b, h1, h2, h3, h4, ?_⟩
      intro q hq
      cases hq
      refine ⟨hf, fun hn => ?_⟩
      refine htodo hn (s.readers k).next file ?_ hf
      revert h4
      cases (s.readers k).chan with
      | none => intro h4; simp only at h4; omega
      | some q => intro h4; simp only at h4; omega
    · rw [set_other _ _ _ _ hki]; exact hrd k hk
  | send i r hiw hhold hchan =>
    refine ⟨hph, hle, fun k hk => ?_, hord, hdata, htodo, hdone, hoth⟩
    dsimp only
    by_cases hki : k = i
    · subst hki
      rw [set_same]
      obtain ⟨b, h1, h2, h3, h4, h5⟩ := hrd k hk
      rw [hchan] at h4
      simp only at h4
      refine ⟨b, h1, h2, h3, ?_, fun q hq => nomatch hq⟩
      have := h5 r hhold
      rw [h4] at this ⊢
      exact ⟨rfl, this.1, this.2⟩
    · rw [set_other _ _ _ _ hki]; exact hrd k hk
  | process file r hp hf hchan heq =>
    have hlt : s.count < files.length := (List.getElem?_eq_some_iff.mp hf).1
    have hmod : s.count % w < w := Nat.mod_lt _ hw
    have hr := hrd _ hmod
    refine ⟨hph, hlt, fun k hk => ?_, ?_, ?_, ?_, ?_, ?_⟩
    · dsimp only
      by_cases hki : k = s.count % w
      · subst hki
        rw [set_same]
        obtain ⟨b, h1, h2, h3, h4, h5⟩ := hr
        have hb : b = s.count := mod_unique w s.count b h1.symm h2 h3
        subst hb
        rw [hchan] at h4
        exact ⟨s.count + w, by rw [Nat.add_mod_right], by omega, by omega, h4.1, h5⟩
      · rw [set_other _ _ _ _ hki]
        obtain ⟨b, h1, h2, h3, h4, h5⟩ := hrd k hk
        refine ⟨b, h1, ?_, by omega, h4, h5⟩
        have : b ≠ s.count := fun h => hki (by rw [← h, h1])
        omega
    · dsimp only
      rw [List.map_append, hord, List.take_add_one, hf, List.map_cons, List.map_nil, heq]; rfl
    · intro hn q hq
      rcases List.mem_append.mp hq with hq | hq
      · exact hdata hn q hq
      · rw [List.mem_singleton.mp hq]
        obtain ⟨b, h1, h2, h3, h4, h5⟩ := hr
        rw [hchan] at h4
        exact h4.2.2 hn
    · intro hn j f hj hjf
      dsimp only at hj ⊢
      have hne : f ≠ file := by
        intro h; subst h
        have h0 : s.count < files.length := hlt
        have hj' := (List.getElem?_eq_some_iff.mp hjf)
        have hc' := (List.getElem?_eq_some_iff.mp hf)
        have := nodup_inj hn hj'.1 hc'.1 (by rw [hj'.2, hc'.2])
        omega
      rw [writeTo_other _ _ _ _ hne]
      exact htodo hn j f (by omega) hjf
    · intro hn j f hj hjf
      dsimp only at hj ⊢
      by_cases hjc : j = s.count
      · subst hjc
        rw [hf] at hjf
        cases hjf
        obtain ⟨b, h1, h2, h3, h4, h5⟩ := hr
        rw [hchan] at h4
        rw [h4.2.2 hn, heq]
        exact writeTo_rewritten _ _ _ _ (htodo hn s.count file (Nat.le_refl _) hf)
      · have hne : f ≠ file := by
          intro h; subst h
          have hj' := (List.getElem?_eq_some_iff.mp hjf)
          have hc' := (List.getElem?_eq_some_iff.mp hf)
          have := nodup_inj hn hj'.1 hc'.1 (by rw [hj'.2, hc'.2])
          omega
        rw [writeTo_other _ _ _ _ hne]
        exact hdone hn j f (by omega) hjf
    · intro f hf'
      dsimp only
      rw [writeTo_other _ _ _ _ (fun h => hf' (by rw [h]; exact List.mem_of_getElem? hf))]
      exact hoth f hf'
  | phase file r hp hf hchan hne =>
    exfalso
    obtain ⟨b, h1, h2, h3, h4, h5⟩ := hrd _ (Nat.mod_lt s.count hw)
    have hb : b = s.count := mod_unique w s.count b h1.symm h2 h3
    subst hb
    rw [hchan] at h4
    rw [hf] at h4
    exact hne (Option.some.inj h4.2.1).symm

theorem inv_steps (files : List N) (w : Nat) (hw : 1 ≤ w) (work : N → Bytes → Option Bytes) (fs0 : N → Option Bytes) (s t : State N) (n : Nat)
    (hi : Inv files w work fs0 s) (h : Steps files w work s t n) : Inv files w work fs0 t := by
  induction h with
  | refl => exact hi
  | step t u n _ hst ih => exact inv_step files w hw work fs0 t u ih hst

/-- **C40 (order).** However the readers are scheduled, and whatever the number of workers: the results processed so far are those of the
first files, in the order of the command line, and there is never a phase error. (Files may be repeated.) -/
theorem C40_in_order (files : List N) (w : Nat) (hw : 1 ≤ w) (work : N → Bytes → Option Bytes) (fs0 : N → Option Bytes) (s : State N) (n : Nat)
    (h : Steps files w work (start fs0) s n) :
    s.processed.map (·.file) = files.take s.count ∧ s.count ≤ files.length ∧ s.phaseError = false := by
  have hi := inv_steps files w hw work fs0 _ s n (inv_start files w hw work fs0) h
  exact ⟨hi.order, hi.le, hi.noPhase⟩

/-- **C40 (contents).** If no file is given twice: when all files have been processed, each was processed with its original contents,
each has the contents this wrote, and nothing else was touched. -/
theorem C40_contents (files : List N) (hn : files.Nodup) (w : Nat) (hw : 1 ≤ w) (work : N → Bytes → Option Bytes) (fs0 : N → Option Bytes)
    (s : State N) (n : Nat) (h : Steps files w work (start fs0) s n) (hfin : s.count = files.length) :
    s.processed = files.map (fun f => ⟨f, fs0 f⟩) ∧ (∀ f ∈ files, s.fs f = rewritten fs0 work f) ∧ (∀ f, f ∉ files → s.fs f = fs0 f) := by
  have hi := inv_steps files w hw work fs0 _ s n (inv_start files w hw work fs0) h
  refine ⟨?_, fun f hf => ?_, hi.others⟩
  · have ho := hi.order
    rw [hfin, List.take_length] at ho
    rw [← ho, List.map_map]
    conv => lhs; rw [← List.map_id' s.processed]
    apply List.map_congr_left
    intro q hq
    show q = ⟨q.file, fs0 q.file⟩
    rw [← hi.data hn q hq]
  · obtain ⟨j, hj, hjf⟩ := List.getElem_of_mem hf
    exact hi.done hn j f (by omega) (by rw [List.getElem?_eq_getElem hj, hjf])

/-- **C40 (no deadlock).** As long as some file has not been processed, some step is possible. -/
theorem C40_no_deadlock (files : List N) (w : Nat) (hw : 1 ≤ w) (work : N → Bytes → Option Bytes) (fs0 : N → Option Bytes) (s : State N) (n : Nat)
    (h : Steps files w work (start fs0) s n) (hfin : s.count ≠ files.length) : ∃ t, Step files w work s t := by
  have hi := inv_steps files w hw work fs0 _ s n (inv_start files w hw work fs0) h
  have hlt : s.count < files.length := Nat.lt_of_le_of_ne hi.le hfin
  have hmod : s.count % w < w := Nat.mod_lt _ hw
  obtain ⟨b, h1, h2, h3, h4, h5⟩ := hi.readers _ hmod
  have hb : b = s.count := mod_unique w s.count b h1.symm h2 h3
  subst hb
  cases hc : (s.readers (s.count % w)).chan with
  | some q =>
    rw [hc] at h4
    exact ⟨_, .process s q.file q hi.noPhase h4.2.1 hc rfl⟩
  | none =>
    rw [hc] at h4
    cases hh : (s.readers (s.count % w)).hold with
    | some q => exact ⟨_, .send s _ q hmod hh hc⟩
    | none => exact ⟨_, .read s _ (files[s.count]'hlt) hmod hh (by rw [h4]; exact List.getElem?_eq_getElem hlt)⟩

/-- what a reader still has to do -/
def weightR (len : Nat) (r : Reader N) : Nat :=
  4 * (len - r.next) + (if r.chan.isSome then 1 else 0) + (if r.hold.isSome then 0 else 1)

def weight (len w : Nat) (s : State N) : Nat :=
  ((List.range w).map fun i => weightR len (s.readers i)).sum + (if s.phaseError then 0 else 1)

theorem sum_set (f : Nat → Reader N) (g : Reader N → Nat) (i : Nat) (r : Reader N) : ∀ w, i < w → g r < g (f i) →
    ((List.range w).map fun k => g (setReader f i r k)).sum < ((List.range w).map fun k => g (f k)).sum := by
  have heq : ∀ w, w ≤ i → ((List.range w).map fun k => g (setReader f i r k)) = ((List.range w).map fun k => g (f k)) := by
    intro w hw
    apply List.map_congr_left
    intro k hk
    rw [set_other _ _ _ _ (by have := List.mem_range.mp hk; omega)]
  intro w
  induction w with
  | zero => intro h; omega
  | succ w ih =>
    intro h hg
    simp only [List.range_succ, List.map_append, List.map_cons, List.map_nil, List.sum_append, List.sum_cons, List.sum_nil]
    by_cases hw : i = w
    · subst hw
      rw [heq i (Nat.le_refl _), set_same]; omega
    · have := ih (by omega) hg
      rw [set_other f i w r (fun h => hw h.symm)]; omega

theorem weight_step (files : List N) (w : Nat) (hw : 1 ≤ w) (work : N → Bytes → Option Bytes) (fs0 : N → Option Bytes) (s t : State N)
    (hi : Inv files w work fs0 s) (h : Step files w work s t) : weight files.length w t < weight files.length w s := by
  cases h with
  | read i file hiw hhold hf =>
    refine Nat.add_lt_add_right (sum_set _ (weightR files.length) i _ w hiw ?_) _
    have := (List.getElem?_eq_some_iff.mp hf).1
    simp only [weightR, hhold, Option.isSome_none, Option.isSome_some, if_true, Bool.false_eq_true, if_false]
    omega
  | send i r hiw hhold hchan =>
    refine Nat.add_lt_add_right (sum_set _ (weightR files.length) i _ w hiw ?_) _
    obtain ⟨b, h1, h2, h3, h4, h5⟩ := hi.readers i hiw
    have := (List.getElem?_eq_some_iff.mp (h5 r hhold).1).1
    simp only [weightR, hhold, hchan, Option.isSome_none, Option.isSome_some, if_true, Bool.false_eq_true, if_false]
    omega
  | process file r hp hf hchan heq =>
    refine Nat.add_lt_add_right (sum_set _ (weightR files.length) _ _ w (Nat.mod_lt _ hw) ?_) _
    simp only [weightR, hchan, Option.isSome_none, Option.isSome_some, if_true, Bool.false_eq_true, if_false]
    omega
  | phase file r hp hf hchan hne =>
    exact Nat.add_lt_add_left (by rw [hp]; exact Nat.zero_lt_one) _

/-- **C40 (termination).** Runs cannot be arbitrarily long. -/
theorem C40_terminates (files : List N) (w : Nat) (hw : 1 ≤ w) (work : N → Bytes → Option Bytes) (fs0 : N → Option Bytes) (s : State N) (n : Nat)
    (h : Steps files w work (start fs0) s n) : n ≤ w * (4 * files.length + 1) + 1 := by
  have hkey : n + weight files.length w s ≤ weight files.length w (start fs0) := by
    induction h with
    | refl => simp
    | step t u n h hst ih =>
      have := weight_step files w hw work fs0 t u (inv_steps files w hw work fs0 _ t n (inv_start files w hw work fs0) h) hst
      omega
  have h0 : ∀ k, ((List.range k).map fun i => weightR files.length ((start fs0).readers i)).sum ≤ k * (4 * files.length + 1) := by
    intro k
    induction k with
    | zero => simp
    | succ k ih =>
      simp only [List.range_succ, List.map_append, List.map_cons, List.map_nil, List.sum_append, List.sum_cons, List.sum_nil]
      have : weightR files.length ((start fs0).readers k) ≤ 4 * files.length + 1 := by
        simp only [weightR, start, Option.isSome_none, Bool.false_eq_true, if_false]
        omega
      rw [Nat.succ_mul]
      omega
  have := h0 w
  have h1 : weight files.length w (start fs0) ≤ w * (4 * files.length + 1) + 1 := by
    show _ + 1 ≤ _
    exact Nat.succ_le_succ this
  omega

/-- **C40 (workers).** There is at least one worker if there is a file, at most 100, and at most one for ten files (rounded up). -/
theorem C40_workers (n : Nat) : (1 ≤ n → 1 ≤ numWorkers n) ∧ numWorkers n ≤ 100 ∧ (∀ k, n ≤ 10 * k → numWorkers n ≤ k) := by
  unfold numWorkers
  refine ⟨fun h => ?_, Nat.min_le_left _ _, fun k h => ?_⟩ <;> omega

/-- **C40 (exit code).** The exit code is 0 iff every file could be read and processing it gave 0; otherwise it is that of the *last* file
that failed. -/
theorem C40_exit_code (l : List (Option Effect)) :
    ((processAll l).2 = 0 ↔ ∀ o ∈ l, ∃ e, o = some e ∧ e.exit = 0) ∧
    (∀ a o b, l = a ++ o :: b → (∀ o' ∈ b, ∃ e, o' = some e ∧ e.exit = 0) → (∀ e, o = some e → e.exit ≠ 0) →
      (processAll l).2 = (match o with | none => 3 | some e => e.exit)) ∧
    (processAll l).1 = (l.filterMap id).map (·.diag) := by
  have hok : ∀ (l : List (Option Effect)) (s : List Diag × Nat), (∀ o' ∈ l, ∃ e, o' = some e ∧ e.exit = 0) →
      (l.foldl processStep s).2 = s.2 := by
    intro l
    induction l with
    | nil => intro s _; rfl
    | cons o l ih =>
      intro s h
      obtain ⟨e, rfl, he⟩ := h o (by simp)
      rw [List.foldl_cons, ih _ (fun o' ho' => h o' (by simp [ho']))]
      simp [processStep, he]
  have hsplit : ∀ a o b, l = a ++ o :: b → (∀ o' ∈ b, ∃ e, o' = some e ∧ e.exit = 0) → (∀ e, o = some e → e.exit ≠ 0) →
      (processAll l).2 = (match o with | none => 3 | some e => e.exit) := by
    rintro a o b rfl hb ho
    unfold processAll
    rw [List.foldl_append, List.foldl_cons, hok b _ hb]
    cases o with
    | none => rfl
    | some e => simp [processStep, ho e rfl]
  refine ⟨⟨?_, fun h => hok l ([], 0) h⟩, hsplit, ?_⟩
  · intro h0
    apply Classical.byContradiction
    intro hne
    have hex : ∃ a o b, l = a ++ o :: b ∧ (∀ o' ∈ b, ∃ e, o' = some e ∧ e.exit = 0) ∧ (∀ e, o = some e → e.exit ≠ 0) := by
      clear hsplit h0
      induction l with
      | nil => exact absurd (fun o h => nomatch h) hne
      | cons o l ih =>
        by_cases hl : ∀ o' ∈ l, ∃ e, o' = some e ∧ e.exit = 0
        · refine ⟨[], o, l, rfl, hl, fun e he h => hne ?_⟩
          intro o' ho'
          rcases List.mem_cons.mp ho' with rfl | ho'
          · exact ⟨e, he, h⟩
          · exact hl o' ho'
        · obtain ⟨a, o', b, rfl, h1, h2⟩ := ih hl
          exact ⟨o :: a, o', b, rfl, h1, h2⟩
    obtain ⟨a, o, b, hl, hb, ho⟩ := hex
    have := hsplit a o b hl hb ho
    rw [h0] at this
    cases o with
    | none => cases this
    | some e => exact ho e rfl this.symm
  · unfold processAll
    suffices ∀ (l : List (Option Effect)) (s : List Diag × Nat), (l.foldl processStep s).1 = s.1 ++ (l.filterMap id).map (·.diag) by
      simpa using this l ([], 0)
    intro l
    induction l with
    | nil => intro s; simp
    | cons o l ih =>
      intro s
      rw [List.foldl_cons, ih]
      cases o <;> simp [processStep]

/-! #### cases -/

/-- a run of two different files, with the reader ahead of the main goroutine -/
example : ∃ s n, Steps [true, false] (numWorkers 2) (fun _ d => some (1 :: d)) (start fun _ => some []) s n ∧ s.count = 2 := by
  have r := Steps.step _ _ _ _ (.step _ _ _ _ (.step _ _ _ _ (.step _ _ _ _ (.step _ _ _ _ (.step _ _ _ _
    (.refl (files := [true, false]) (w := 1) (work := fun _ d => some (1 :: d)) (start fun _ => some []))
    (.read _ 0 true (by decide) rfl rfl)) (.send _ 0 ⟨true, some []⟩ (by decide) rfl rfl)) (.read _ 0 false (by decide) rfl rfl))
    (.process _ true ⟨true, some []⟩ rfl rfl rfl rfl)) (.send _ 0 ⟨false, _⟩ (by decide) rfl rfl)) (.process _ false ⟨false, _⟩ rfl rfl rfl rfl)
  exact ⟨_, _, r, rfl⟩

/-- **C40 (finding).** If a file is given twice in fix mode, what it ends up with may depend on the schedule (if formatting is not idempotent):
the second read may come before or after the first write. -/
theorem C40_duplicate_witness :
    let work : Unit → Bytes → Option Bytes := fun _ d => some (1 :: d)
    ∃ (s t : State Unit) (n m : Nat), Steps [(), ()] (numWorkers 2) work (start fun _ => some []) s n ∧ s.count = 2 ∧ s.fs () = some [1, 1] ∧
      Steps [(), ()] (numWorkers 2) work (start fun _ => some []) t m ∧ t.count = 2 ∧ t.fs () = some [1] := by
  have w : ∀ (fs : Unit → Option Bytes) d, writeTo fs () (some d) = fun _ => some d := by
    intro fs d; funext x; simp [writeTo]
  have hw : ∀ (s : State Unit) fs, { s with fs := fs } = State.mk fs s.readers s.count s.phaseError s.processed := fun _ _ => rfl
  have r := Steps.step _ _ _ _ (.step _ _ _ _ (.step _ _ _ _
    (.refl (files := [(), ()]) (w := 1) (work := fun _ d => some (1 :: d)) (start fun _ => some []))
    (.read _ 0 () (by decide) rfl rfl)) (.send _ 0 ⟨(), some []⟩ (by decide) rfl rfl))
    (.process _ () ⟨(), some []⟩ rfl rfl rfl rfl)
  have r2 := Steps.step _ _ _ _ (.step _ _ _ _ (.step _ _ _ _ r
    (.read _ 0 () (by decide) rfl rfl)) (.send _ 0 ⟨(), _⟩ (by decide) rfl rfl)) (.process _ () ⟨(), _⟩ rfl rfl rfl rfl)
  have q := Steps.step _ _ _ _ (.step _ _ _ _ (.step _ _ _ _ (.step _ _ _ _ (.step _ _ _ _ (.step _ _ _ _
    (.refl (files := [(), ()]) (w := 1) (work := fun _ d => some (1 :: d)) (start fun _ => some []))
    (.read _ 0 () (by decide) rfl rfl)) (.send _ 0 ⟨(), some []⟩ (by decide) rfl rfl)) (.read _ 0 () (by decide) rfl rfl))
    (.process _ () ⟨(), some []⟩ rfl rfl rfl rfl)) (.send _ 0 ⟨(), _⟩ (by decide) rfl rfl)) (.process _ () ⟨(), _⟩ rfl rfl rfl rfl)
  refine ⟨_, _, _, _, r2, rfl, ?_, q, rfl, ?_⟩
  · simp [w, start]
  · simp [w, start]

end C40
end Verif.Props.Buildifier
