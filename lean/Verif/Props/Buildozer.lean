import Verif.Model.Buildozer
/-
C38: the workers of buildozer. C39: what happens to one file.
-/
namespace Verif.Props.Buildozer
open Verif Verif.Buildozer

/-! ### C39: specification

What executing everything, without ever stopping, would do: a list of events, each with the error and whether the file was
changed. -/

section C39
variable {σ ρ ε : Type}

inductive RunsOn (c : Command σ ρ ε) : List (Option ρ) → σ → List (Option ε × Bool) → σ → Prop
  | nil (t) : RunsOn c [] t [] t
  | cons (r rs t evs t') : RunsOn c rs (c.run t r).tree evs t' →
      RunsOn c (r :: rs) t (((c.run t r).err, (c.run t r).changed) :: evs) t'

/-- a command for rules runs on each rule, others once on the file -/
inductive RunsCmds (rules : List ρ) : List (Command σ ρ ε) → σ → List (Option ε × Bool) → σ → Prop
  | nil (t) : RunsCmds rules [] t [] t
  | cons (c cs t e1 t1 e2 t2) : RunsOn c (if c.perRule then rules.map some else [none]) t e1 t1 → RunsCmds rules cs t1 e2 t2 →
      RunsCmds rules (c :: cs) t (e1 ++ e2) t2

/-- a target that is not found is an error -/
inductive RunsAll : List (Target σ ρ ε) → σ → List (Option ε × Bool) → σ → Prop
  | nil (t) : RunsAll [] t [] t
  | found (tg ts t t0 rules e1 t1 e2 t2) : tg.expand t = (t0, .ok rules) → RunsCmds rules tg.commands t0 e1 t1 → RunsAll ts t1 e2 t2 →
      RunsAll (tg :: ts) t (e1 ++ e2) t2
  | missing (tg ts t t0 e e1 t1 e2 t2) : tg.expand t = (t0, .error e) → RunsCmds [] tg.commands t0 e1 t1 → RunsAll ts t1 e2 t2 →
      RunsAll (tg :: ts) t ((some e, false) :: e1 ++ e2) t2

/-- the errors of the events, in order -/
def errors (evs : List (Option ε × Bool)) : List ε := evs.filterMap (·.1)

/-! ### proofs -/

theorem runsOn_total (c : Command σ ρ ε) (rs : List (Option ρ)) : ∀ t, ∃ evs t', RunsOn c rs t evs t' := by
  induction rs with
  | nil => intro t; exact ⟨_, _, .nil t⟩
  | cons r rs ih => intro t; obtain ⟨evs, t', h⟩ := ih (c.run t r).tree; exact ⟨_, _, .cons _ _ _ _ _ h⟩

theorem runsCmds_total (rules : List ρ) (cs : List (Command σ ρ ε)) : ∀ t, ∃ evs t', RunsCmds rules cs t evs t' := by
  induction cs with
  | nil => intro t; exact ⟨_, _, .nil t⟩
  | cons c cs ih =>
    intro t
    obtain ⟨e1, t1, h1⟩ := runsOn_total c (if c.perRule then rules.map some else [none]) t
    obtain ⟨e2, t2, h2⟩ := ih t1
    exact ⟨_, _, .cons _ _ _ _ _ _ _ h1 h2⟩

/-- **C39 (the events exist).** -/
theorem C39_events_exist (ts : List (Target σ ρ ε)) : ∀ t, ∃ evs t', RunsAll ts t evs t' := by
  induction ts with
  | nil => intro t; exact ⟨_, _, .nil t⟩
  | cons tg ts ih =>
    intro t
    rcases h : tg.expand t with ⟨t0, e | rules⟩
    · obtain ⟨e1, t1, h1⟩ := runsCmds_total [] tg.commands t0
      obtain ⟨e2, t2, h2⟩ := ih t1
      exact ⟨_, _, .missing _ _ _ _ _ _ _ _ _ h h1 h2⟩
    · obtain ⟨e1, t1, h1⟩ := runsCmds_total rules tg.commands t0
      obtain ⟨e2, t2, h2⟩ := ih t1
      exact ⟨_, _, .found _ _ _ _ _ _ _ _ _ h h1 h2⟩

/-- how the state after the events relates to the one before -/
def After (kg : Bool) (s : Run σ ε) (evs : List (Option ε × Bool)) (t' : σ) (s' : Run σ ε) : Prop :=
  ((kg = true ∨ errors evs = []) ∧ s' = ⟨t', s.changed || evs.any (·.2), s.errs ++ errors evs, false⟩) ∨
  (kg = false ∧ s'.stop = true ∧ ∃ e, (errors evs).head? = some e ∧ s'.errs = [e])

theorem errors_append (a b : List (Option ε × Bool)) : errors (a ++ b) = errors a ++ errors b := List.filterMap_append

theorem After.trans {kg : Bool} {s s1 s2 : Run σ ε} {e1 e2 : List (Option ε × Bool)} {t1 t2 : σ}
    (h1 : After kg s e1 t1 s1) (h2 : s1.stop = false → After kg s1 e2 t2 s2) (h3 : s1.stop = true → s2 = s1) :
    After kg s (e1 ++ e2) t2 s2 := by
  rcases h1 with ⟨ha, hs1⟩ | ⟨hk, hstop, e, he, herr⟩
  · have hns : s1.stop = false := by rw [hs1]
    rcases h2 hns with ⟨hb, hs2⟩ | ⟨hk, hstop, e, he, herr⟩
    · refine .inl ⟨?_, ?_⟩
      · rcases ha with ha | ha
        · exact .inl ha
        · rcases hb with hb | hb
          · exact .inl hb
          · exact .inr (by rw [errors_append, ha, hb]; rfl)
      · rw [hs2, hs1, errors_append, List.any_append, Bool.or_assoc, List.append_assoc]
    · refine .inr ⟨hk, hstop, e, ?_, herr⟩
      rcases ha with ha | ha
      · rw [hk] at ha; cases ha
      · rw [errors_append, ha]; exact he
  · refine .inr ⟨hk, ?_, e, ?_, ?_⟩
    · rw [h3 hstop]; exact hstop
    · rw [errors_append]
      cases hh : errors e1 with
      | nil => rw [hh] at he; cases he
      | cons x l => rw [hh] at he; exact he
    · rw [h3 hstop]; exact herr

theorem stop_on (kg : Bool) (c : Command σ ρ ε) (rs : List (Option ρ)) (s : Run σ ε) (h : s.stop = true) :
    rs.foldl (runOne kg c) s = s := by
  induction rs with
  | nil => rfl
  | cons r rs ih => rw [List.foldl_cons]; unfold runOne; rw [if_pos h]; exact ih

theorem stop_cmds (kg : Bool) (rules : List ρ) (cs : List (Command σ ρ ε)) (s : Run σ ε) (h : s.stop = true) :
    cs.foldl (runCommand kg rules) s = s := by
  induction cs with
  | nil => rfl
  | cons c cs ih => rw [List.foldl_cons]; unfold runCommand; rw [stop_on kg c _ s h]; exact ih

theorem stop_all (kg : Bool) (ts : List (Target σ ρ ε)) (s : Run σ ε) (h : s.stop = true) : ts.foldl (runTarget kg) s = s := by
  induction ts with
  | nil => rfl
  | cons t ts ih => rw [List.foldl_cons]; unfold runTarget; rw [if_pos h]; exact ih

theorem errs_nil {kg : Bool} {s s1 : Run σ ε} {evs : List (Option ε × Bool)} {t1 : σ} (h : After kg s evs t1 s1) (hs : kg = false → s.errs = [])
    (hst : s1.stop = false) : kg = false → s1.errs = [] := by
  intro hk
  rcases h with ⟨ha, rfl⟩ | ⟨_, hstop, _⟩
  · rcases ha with ha | ha
    · rw [hk] at ha; cases ha
    · rw [ha, hs hk]; rfl
  · rw [hst] at hstop; cases hstop

theorem on_spec (kg : Bool) {c : Command σ ρ ε} {rs : List (Option ρ)} {t : σ} {evs t'} (h : RunsOn c rs t evs t') :
    ∀ s : Run σ ε, s.tree = t → s.stop = false → (kg = false → s.errs = []) → After kg s evs t' (rs.foldl (runOne kg c) s) := by
  induction h with
  | nil t =>
    rintro ⟨_, _, _, _⟩ rfl hst _
    cases hst
    exact .inl ⟨.inr rfl, by simp [errors]⟩
  | cons r rs t evs t' _ ih =>
    rintro s rfl hst herr
    rw [List.foldl_cons]
    have h1 : After kg s [((c.run s.tree r).err, (c.run s.tree r).changed)] (c.run s.tree r).tree (runOne kg c s r) := by
      unfold runOne
      rw [if_neg (by simp [hst])]
      dsimp only
      cases he : (c.run s.tree r).err with
      | none => exact .inl ⟨.inr rfl, by simp [errors, hst]⟩
      | some e =>
        cases kg with
        | true => exact .inl ⟨.inl rfl, by simp [errors, hst]⟩
        | false => exact .inr ⟨rfl, rfl, e, rfl, rfl⟩
    refine h1.trans (e2 := evs) (fun hs1 => ?_) (stop_on kg c rs _)
    refine ih _ ?_ hs1 (errs_nil h1 herr hs1)
    rcases h1 with ⟨_, h1⟩ | ⟨_, h1, _⟩
    · rw [h1]
    · rw [hs1] at h1; cases h1

theorem after_tree {kg : Bool} {s s1 : Run σ ε} {evs : List (Option ε × Bool)} {t1 : σ} (h : After kg s evs t1 s1) (hst : s1.stop = false) :
    s1.tree = t1 := by
  rcases h with ⟨_, h⟩ | ⟨_, h, _⟩
  · rw [h]
  · rw [hst] at h; cases h

theorem cmds_spec (kg : Bool) {rules : List ρ} {cs : List (Command σ ρ ε)} {t : σ} {evs t'} (h : RunsCmds rules cs t evs t') :
    ∀ s : Run σ ε, s.tree = t → s.stop = false → (kg = false → s.errs = []) → After kg s evs t' (cs.foldl (runCommand kg rules) s) := by
  induction h with
  | nil t =>
    rintro ⟨_, _, _, _⟩ rfl hst _
    cases hst
    exact .inl ⟨.inr rfl, by simp [errors]⟩
  | cons c cs t e1 t1 e2 t2 h1 _ ih =>
    intro s hs hst herr
    rw [List.foldl_cons]
    have h := on_spec kg h1 s hs hst herr
    exact h.trans (fun hs1 => ih _ (after_tree h hs1) hs1 (errs_nil h herr hs1)) (stop_cmds kg rules cs _)

theorem all_spec (kg : Bool) {ts : List (Target σ ρ ε)} {t : σ} {evs t'} (h : RunsAll ts t evs t') :
    ∀ s : Run σ ε, s.tree = t → s.stop = false → (kg = false → s.errs = []) → After kg s evs t' (ts.foldl (runTarget kg) s) := by
  induction h with
  | nil t =>
    rintro ⟨_, _, _, _⟩ rfl hst _
    cases hst
    exact .inl ⟨.inr rfl, by simp [errors]⟩
  | found tg ts t t0 rules e1 t1 e2 t2 hx h1 _ ih =>
    intro s hs hst herr
    rw [List.foldl_cons]
    have h : After kg s e1 t1 (runTarget kg s tg) := by
      unfold runTarget
      rw [if_neg (by simp [hst]), show tg.expand s.tree = (t0, .ok rules) by rw [hs]; exact hx]
      exact cmds_spec kg h1 { s with tree := t0 } rfl hst herr
    exact h.trans (fun hs1 => ih _ (after_tree h hs1) hs1 (errs_nil h herr hs1)) (stop_all kg ts _)
  | missing tg ts t t0 e e1 t1 e2 t2 hx h1 _ ih =>
    intro s hs hst herr
    rw [List.foldl_cons]
    have h : After kg s ((some e, false) :: e1) t1 (runTarget kg s tg) := by
      unfold runTarget
      rw [if_neg (by simp [hst]), show tg.expand s.tree = (t0, .error e) by rw [hs]; exact hx]
      dsimp only
      cases kg with
      | true =>
        have h0 : After true s [(some e, false)] t0 { s with tree := t0, errs := s.errs ++ [e] } :=
          .inl ⟨.inl rfl, by cases s; simp only at hs hst; subst hs; subst hst; simp [errors]⟩
        exact h0.trans (fun hs1 => cmds_spec true h1 _ rfl hs1 (fun h => nomatch h)) (stop_cmds true [] tg.commands _)
      | false => exact .inr ⟨rfl, rfl, e, rfl, by rw [herr rfl]; rfl⟩
    exact h.trans (fun hs1 => ih _ (after_tree h hs1) hs1 (errs_nil h herr hs1)) (stop_all kg ts _)

/-- the file could be parsed -/
theorem rewrite_cases (kg stdout : Bool) (env : Env σ ε) (ts : List (Target σ ρ ε)) (data : Bytes) (f : σ) (hf : env.parse data = .ok f)
    (evs : List (Option ε × Bool)) (t' : σ) (h : RunsAll ts f evs t') :
    (kg = false ∧ ∃ e, (errors evs).head? = some e ∧ rewrite kg stdout env ts data = { errs := [e] }) ∨
    ((kg = true ∨ errors evs = []) ∧ rewrite kg stdout env ts data =
      if evs.any (·.2) then
        match env.buildify (env.clean t') with
        | .error e => { errs := [e] }
        | .ok ndata =>
          if stdout || env.isStdin then { errs := errors evs, printed := some ndata }
          else if data = ndata then { errs := errors evs }
          else match env.editErr with
            | some e => { errs := [e] }
            | none => match env.writeErr with
              | some e => { errs := [e], written := some ndata }
              | none => { errs := errors evs, modified := true, written := some ndata }
      else { errs := errors evs }) := by
  have := all_spec kg h { tree := f } rfl rfl (fun _ => rfl)
  unfold rewrite
  rw [hf]
  dsimp only
  rcases this with ⟨ha, hs⟩ | ⟨hk, hstop, e, he, herr⟩
  · refine .inr ⟨ha, ?_⟩
    rw [hs]
    simp only [Bool.false_eq_true, if_false, Bool.false_or, List.nil_append]
    cases evs.any (·.2) <;> rfl
  · refine .inl ⟨hk, e, he, ?_⟩
    rw [if_pos hstop, herr]

/-- **C39 (failure).** If a command fails, or a target is not found, and keep-going is not set, then nothing is written or printed,
and the first error is reported. -/
theorem C39_failed_untouched (stdout : Bool) (env : Env σ ε) (ts : List (Target σ ρ ε)) (data : Bytes) (f : σ) (hf : env.parse data = .ok f)
    (evs : List (Option ε × Bool)) (t' : σ) (h : RunsAll ts f evs t') (herr : errors evs ≠ []) :
    ∃ e, (errors evs).head? = some e ∧ rewrite false stdout env ts data = { errs := [e], modified := false, printed := none, written := none } := by
  rcases rewrite_cases false stdout env ts data f hf evs t' h with ⟨_, e, he, hr⟩ | ⟨h1, _⟩
  · exact ⟨e, he, hr⟩
  · rcases h1 with h1 | h1
    · cases h1
    · exact absurd h1 herr

/-- **C39 (parse errors).** -/
theorem C39_parse_error (kg stdout : Bool) (env : Env σ ε) (ts : List (Target σ ρ ε)) (data : Bytes) (e : ε) (hf : env.parse data = .error e) :
    rewrite kg stdout env ts data = { errs := [e], modified := false, printed := none, written := none } := by
  unfold rewrite; rw [hf]

/-- **C39 (when the file is written).** The file is written iff everything ran to the end (no error, or keep-going), some
command changed the file, the result is not to be printed, could be formatted, differs from the old contents, and the file could be
checked out; and what is written is the formatted tree. -/
theorem C39_written_iff (kg stdout : Bool) (env : Env σ ε) (ts : List (Target σ ρ ε)) (data : Bytes) (f : σ) (hf : env.parse data = .ok f)
    (evs : List (Option ε × Bool)) (t' : σ) (h : RunsAll ts f evs t') (new : Bytes) :
    (rewrite kg stdout env ts data).written = some new ↔
      (kg = true ∨ errors evs = []) ∧ (∃ ev ∈ evs, ev.2 = true) ∧ stdout = false ∧ env.isStdin = false ∧
      env.buildify (env.clean t') = .ok new ∧ new ≠ data ∧ env.editErr = none := by
  rcases rewrite_cases kg stdout env ts data f hf evs t' h with ⟨hk, e, he, hr⟩ | ⟨hk, hr⟩
  · rw [hr]
    constructor
    · intro h; cases h
    · rintro ⟨h1 | h1, _⟩
      · rw [hk] at h1; cases h1
      · rw [h1] at he; cases he
  · rw [hr]
    by_cases hc : evs.any (·.2) = true
    · have hc' : ∃ ev ∈ evs, ev.2 = true := by simpa using hc
      rw [if_pos hc]
      cases hb : env.buildify (env.clean t') with
      | error e =>
        dsimp only
        constructor
        · intro h; cases h
        · rintro ⟨_, _, _, _, h, _⟩; cases h
      | ok nd =>
        dsimp only
        cases stdout <;> cases hin : env.isStdin <;>
          simp only [Bool.or_true, Bool.or_false, if_true, Bool.false_eq_true, if_false]
        · by_cases hd : data = nd
          · rw [if_pos hd]
            constructor
            · intro h; cases h
            · rintro ⟨_, _, _, _, h, hne, _⟩
              cases h; exact absurd hd.symm hne
          · rw [if_neg hd]
            cases hE : env.editErr with
            | some e =>
              constructor
              · intro h; cases h
              · rintro ⟨_, _, _, _, _, _, h⟩; cases h
            | none =>
              dsimp only
              have : ∀ x : Option ε, (match x with
                | some e => ({ errs := [e], written := some nd } : Result ε)
                | none => { errs := errors evs, modified := true, written := some nd }).written = some nd := by
                intro x; cases x <;> rfl
              rw [this]
              constructor
              · intro h; cases h; exact ⟨hk, hc', by simp, by simp, rfl, fun h => hd h.symm, by simp⟩
              · rintro ⟨_, _, _, _, h, _⟩; cases h; rfl
        all_goals
          constructor
          · intro h; cases h
          · rintro ⟨_, _, h, h', _⟩
            first | (cases h; done) | (cases h'; done) | simp_all
    · rw [if_neg hc]
      constructor
      · intro h; cases h
      · rintro ⟨_, h, _⟩
        exact absurd (by simpa using h) hc

/-- **C39 (reporting).** `modified` is reported iff the file was written without error; printing happens only in stdout mode or for
standard input; and with keep-going every error is reported unless formatting, checking out or writing fails. -/
theorem C39_reported (kg stdout : Bool) (env : Env σ ε) (ts : List (Target σ ρ ε)) (data : Bytes) (f : σ) (hf : env.parse data = .ok f)
    (evs : List (Option ε × Bool)) (t' : σ) (h : RunsAll ts f evs t') :
    ((rewrite kg stdout env ts data).modified = true ↔ (rewrite kg stdout env ts data).written ≠ none ∧ env.writeErr = none) ∧
    ((rewrite kg stdout env ts data).printed ≠ none → (stdout = true ∨ env.isStdin = true) ∧ (rewrite kg stdout env ts data).written = none) ∧
    ((∃ new, env.buildify (env.clean t') = .ok new) → env.editErr = none → env.writeErr = none → (kg = true ∨ errors evs = []) →
      (rewrite kg stdout env ts data).errs = errors evs) := by
  rcases rewrite_cases kg stdout env ts data f hf evs t' h with ⟨hk, e, he, hr⟩ | ⟨hk, hr⟩
  · rw [hr]
    refine ⟨by simp, by simp, ?_⟩
    rintro _ _ _ (h | h)
    · rw [hk] at h; cases h
    · rw [h] at he; cases he
  · rw [hr]
    cases evs.any (·.2) with
    | false => simp
    | true =>
      simp only [if_true]
      cases hb : env.buildify (env.clean t') with
      | error e =>
        refine ⟨by simp, by simp, ?_⟩
        rintro ⟨_, h⟩; cases h
      | ok nd =>
        dsimp only
        cases hin : (stdout || env.isStdin) with
        | true => simpa using hin
        | false =>
          simp only [Bool.false_eq_true, if_false]
          by_cases hd : data = nd
          · simp [hd]
          · rw [if_neg hd]
            cases hE : env.editErr with
            | some e => simp
            | none => cases hW : env.writeErr <;> simp

end C39

/-! ### C38 -/

section C38
variable {F R N : Type}

/-- the files a worker has not finished -/
def pendingW : Worker F R → List F
  | .got f | .read f _ => [f]
  | _ => []

def doneW : Worker F R → List (F × R)
  | .ready f r => [(f, r)]
  | _ => []

def pending (s : State F R N) : List F := s.toSend ++ s.workers.flatMap pendingW

def done (s : State F R N) : List (F × R) := s.workers.flatMap doneW ++ s.buf ++ s.got

/-- the contents of the file after the commands have been applied once, to the original contents -/
def rewritten (job : Job F R N) (fs0 : N → Option Bytes) (f : F) : Option Bytes :=
  match (job.work f (fs0 (job.path f))).1 with
  | some d => some d
  | none => fs0 (job.path f)

structure Inv (job : Job F R N) (files : List F) (fs0 : N → Option Bytes) (s : State F R N) : Prop where
  perm : (pending s ++ (done s).map (·.1)).Perm files
  pend : ∀ f ∈ pending s, s.fs (job.path f) = fs0 (job.path f)
  seen : ∀ f d, Worker.read f d ∈ s.workers → d = fs0 (job.path f)
  res : ∀ q ∈ done s, q.2 = (job.work q.1 (fs0 (job.path q.1))).2 ∧ s.fs (job.path q.1) = rewritten job fs0 q.1
  other : ∀ n, n ∉ files.map job.path → s.fs n = fs0 n
  closed : s.closed = true → s.toSend = []

/-- the state at the start: some order of the files, and `n` workers -/
def initial (fs0 : N → Option Bytes) (order : List F) (n : Nat) : State F R N :=
  { fs := fs0, toSend := order, workers := List.replicate n .idle }

theorem inv_initial (job : Job F R N) (files order : List F) (fs0 : N → Option Bytes) (n : Nat) (h : order.Perm files) :
    Inv job files fs0 (initial (R := R) fs0 order n) := by
  have hw : ∀ n, (List.replicate n (Worker.idle : Worker F R)).flatMap pendingW = [] := by
    intro n; rw [List.flatMap_eq_nil_iff]; intro w hw; rw [(List.mem_replicate.mp hw).2]; rfl
  have hd : ∀ n, (List.replicate n (Worker.idle : Worker F R)).flatMap doneW = [] := by
    intro n; rw [List.flatMap_eq_nil_iff]; intro w hw; rw [(List.mem_replicate.mp hw).2]; rfl
  constructor
  · simpa [pending, done, initial, hw, hd] using h
  · intro f _; rfl
  · intro f d h
    have := (List.mem_replicate.mp h).2
    cases this
  · intro q hq; simp [done, initial, hd] at hq
  · intro n _; rfl
  · intro h; cases h

theorem flatMap_split {α β} (g : α → List β) (a b : List α) (x : α) : (a ++ x :: b).flatMap g = a.flatMap g ++ g x ++ b.flatMap g := by
  simp

theorem writeTo_other (fs : N → Option Bytes) (n m : N) (d : Option Bytes) (h : m ≠ n) : writeTo fs n d m = fs m := by
  cases d with
  | none => rfl
  | some d => simp [writeTo, h]

theorem perm_ends {α} (a b c d : List α) : (a ++ b ++ c ++ d).Perm (b ++ (a ++ c ++ d)) := by
  rw [show a ++ b ++ c ++ d = (a ++ b) ++ (c ++ d) by simp, show b ++ (a ++ c ++ d) = (b ++ a) ++ (c ++ d) by simp]
  exact List.perm_append_comm.append_right _

theorem inv_step (job : Job F R N) (files : List F) (hinj : (files.map job.path).Nodup) (fs0 : N → Option Bytes) (k : Nat)
    (s t : State F R N) (hi : Inv job files fs0 s) (hs : Step job k s t) : Inv job files fs0 t := by
  obtain ⟨hp, hpend, hseen, hres, hother, hclosed⟩ := hi
  -- moving within a worker without changing what is pending or done
  cases hs with
  | send f rest a b h1 h2 =>
    have hd : done { s with toSend := rest, workers := a ++ .got f :: b } = done s := by
      simp [done, h2, doneW]
    have hpe : (pending { s with toSend := rest, workers := a ++ .got f :: b }).Perm (pending s) := by
      simp only [pending, h1, h2, flatMap_split, pendingW, List.append_nil]
      rw [show rest ++ (a.flatMap pendingW ++ [f] ++ b.flatMap pendingW) = (rest ++ a.flatMap pendingW) ++ f :: b.flatMap pendingW by simp]
      exact List.perm_middle.trans (by simp)
    refine ⟨?_, ?_, ?_, ?_, hother, ?_⟩
    · rw [hd]; exact (hpe.append_right _).trans hp
    · intro g hg; exact hpend g (hpe.mem_iff.mp hg)
    · intro g d hg
      apply hseen g d
      rw [h2]
      simp only [List.mem_append, List.mem_cons] at hg ⊢
      rcases hg with hg | hg | hg
      · exact .inl hg
      · cases hg
      · exact .inr (.inr hg)
    · rw [hd]; exact hres
    · intro hc; have := hclosed hc; rw [h1] at this; cases this
  | close h1 h2 => exact ⟨hp, hpend, hseen, hres, hother, fun _ => h1⟩
  | exit a b h1 h2 =>
    have hd : done { s with workers := a ++ .exited :: b } = done s := by simp [done, h2, doneW]
    have hpe : pending { s with workers := a ++ .exited :: b } = pending s := by simp [pending, h2, pendingW]
    refine ⟨by rw [hd, hpe]; exact hp, by rw [hpe]; exact hpend, ?_, by rw [hd]; exact hres, hother, hclosed⟩
    intro g d hg
    apply hseen g d
    rw [h2]
    simp only [List.mem_append, List.mem_cons] at hg ⊢
    rcases hg with hg | hg | hg
    · exact .inl hg
    · cases hg
    · exact .inr (.inr hg)
  | read f a b h2 =>
    have hd : done { s with workers := a ++ .read f (s.fs (job.path f)) :: b } = done s := by simp [done, h2, doneW]
    have hpe : pending { s with workers := a ++ .read f (s.fs (job.path f)) :: b } = pending s := by simp [pending, h2, pendingW]
    refine ⟨by rw [hd, hpe]; exact hp, by rw [hpe]; exact hpend, ?_, by rw [hd]; exact hres, hother, hclosed⟩
    intro g d hg
    simp only [List.mem_append, List.mem_cons] at hg
    rcases hg with hg | hg | hg
    · exact hseen g d (by rw [h2]; simp [hg])
    · cases hg
      exact hpend f (by simp [pending, h2, pendingW])
    · exact hseen g d (by rw [h2]; simp [hg])
  | write f d a b h2 =>
    have hd0 : d = fs0 (job.path f) := hseen f d (by rw [h2]; simp)
    subst hd0
    have hpf : f ∈ pending s := by simp [pending, h2, pendingW]
    have hpmem : (pending s).Perm (f :: pending { s with
        fs := writeTo s.fs (job.path f) (job.work f (fs0 (job.path f))).1,
        workers := a ++ .ready f (job.work f (fs0 (job.path f))).2 :: b }) := by
      simp only [pending, h2, flatMap_split, pendingW, List.append_nil]
      rw [show s.toSend ++ (a.flatMap pendingW ++ [f] ++ b.flatMap pendingW) = (s.toSend ++ a.flatMap pendingW) ++ f :: b.flatMap pendingW by simp]
      exact List.perm_middle.trans (by simp)
    have hdn : (done { s with
        fs := writeTo s.fs (job.path f) (job.work f (fs0 (job.path f))).1,
        workers := a ++ .ready f (job.work f (fs0 (job.path f))).2 :: b }).Perm
        ((f, (job.work f (fs0 (job.path f))).2) :: done s) := by
      simp only [done, h2, flatMap_split, doneW, List.append_nil]
      rw [show (a.flatMap doneW ++ [(f, (job.work f (fs0 (job.path f))).2)] ++ b.flatMap doneW ++ s.buf ++ s.got) =
        a.flatMap doneW ++ (f, (job.work f (fs0 (job.path f))).2) :: (b.flatMap doneW ++ s.buf ++ s.got) by simp]
      exact List.perm_middle.trans (by simp)
    have hall : ∀ {l : List F}, l.Perm files → (l.map job.path).Nodup := fun h => ((h.map job.path).nodup_iff).mpr hinj
    have hnod : ((f :: (pending { s with
        fs := writeTo s.fs (job.path f) (job.work f (fs0 (job.path f))).1,
        workers := a ++ .ready f (job.work f (fs0 (job.path f))).2 :: b } ++ (done s).map (·.1))).map job.path).Nodup := by
      apply hall
      exact (hpmem.symm.append_right _).trans hp
    rw [List.map_cons, List.nodup_cons] at hnod
    have hne : ∀ g, (g ∈ pending { s with
        fs := writeTo s.fs (job.path f) (job.work f (fs0 (job.path f))).1,
        workers := a ++ .ready f (job.work f (fs0 (job.path f))).2 :: b } ∨ g ∈ (done s).map (·.1)) → job.path g ≠ job.path f := by
      intro g hg he
      exact hnod.1 (List.mem_map.mpr ⟨g, List.mem_append.mpr hg, he⟩)
    refine ⟨?_, ?_, ?_, ?_, ?_, hclosed⟩
    · refine ((hdn.map _).append_left _).trans ?_
      rw [List.map_cons]
      exact (List.perm_middle.trans (hpmem.symm.append_right _)).trans hp
    · intro g hg
      show writeTo s.fs _ _ (job.path g) = _
      rw [writeTo_other _ _ _ _ (hne g (.inl hg))]
      exact hpend g (hpmem.mem_iff.mpr (List.mem_cons_of_mem _ hg))
    · intro g d hg
      apply hseen g d
      rw [h2]
      simp only [List.mem_append, List.mem_cons] at hg ⊢
      rcases hg with hg | hg | hg
      · exact .inl hg
      · cases hg
      · exact .inr (.inr hg)
    · intro q hq
      rcases List.mem_cons.mp (hdn.mem_iff.mp hq) with rfl | hq
      · refine ⟨rfl, ?_⟩
        show writeTo s.fs _ _ (job.path f) = _
        unfold rewritten
        cases (job.work f (fs0 (job.path f))).1 with
        | none => exact hpend f hpf
        | some d => simp [writeTo]
      · obtain ⟨h1, h2⟩ := hres q hq
        refine ⟨h1, ?_⟩
        show writeTo s.fs _ _ (job.path q.1) = _
        rw [writeTo_other _ _ _ _ (hne q.1 (.inr (List.mem_map.mpr ⟨q, hq, rfl⟩)))]
        exact h2
    · intro n hn
      show writeTo s.fs _ _ n = _
      rw [writeTo_other _ _ _ _ (fun he => hn (by
        rw [he]
        exact List.mem_map.mpr ⟨f, hp.mem_iff.mp (List.mem_append_left _ hpf), rfl⟩))]
      exact hother n hn
  | push f r a b h2 hlt =>
    have hd : (done { s with buf := s.buf ++ [(f, r)], workers := a ++ .idle :: b }).Perm (done s) := by
      simp only [done, h2, flatMap_split, doneW, List.append_nil]
      rw [show a.flatMap doneW ++ b.flatMap doneW ++ (s.buf ++ [(f, r)]) ++ s.got =
        (a.flatMap doneW ++ b.flatMap doneW ++ s.buf) ++ (f, r) :: s.got by simp]
      refine List.perm_middle.trans ?_
      rw [show a.flatMap doneW ++ [(f, r)] ++ b.flatMap doneW ++ s.buf ++ s.got =
        a.flatMap doneW ++ (f, r) :: (b.flatMap doneW ++ s.buf ++ s.got) by simp]
      exact (List.perm_middle.trans (by simp)).symm
    have hpe : pending { s with buf := s.buf ++ [(f, r)], workers := a ++ .idle :: b } = pending s := by
      simp [pending, h2, pendingW]
    refine ⟨?_, by rw [hpe]; exact hpend, ?_, ?_, hother, hclosed⟩
    · rw [hpe]; exact ((hd.map _).append_left _).trans hp
    · intro g d hg
      apply hseen g d
      rw [h2]
      simp only [List.mem_append, List.mem_cons] at hg ⊢
      rcases hg with hg | hg | hg
      · exact .inl hg
      · cases hg
      · exact .inr (.inr hg)
    · intro q hq; exact hres q (hd.mem_iff.mp hq)
  | receive q rest h1 h2 h3 =>
    have hd : (done { s with buf := rest, got := s.got ++ [q] }).Perm (done s) := by
      simp only [done, h2]
      rw [show s.workers.flatMap doneW ++ rest ++ (s.got ++ [q]) = (s.workers.flatMap doneW ++ rest ++ s.got) ++ q :: [] by simp]
      refine List.perm_middle.trans ?_
      rw [show s.workers.flatMap doneW ++ q :: rest ++ s.got = s.workers.flatMap doneW ++ q :: (rest ++ s.got) by simp]
      exact (List.perm_middle.trans (by simp)).symm
    refine ⟨((hd.map _).append_left _).trans hp, hpend, hseen, ?_, hother, hclosed⟩
    intro q' hq'; exact hres q' (hd.mem_iff.mp hq')

theorem inv_steps (job : Job F R N) (files : List F) (hinj : (files.map job.path).Nodup) (fs0 : N → Option Bytes) (k n : Nat)
    (s t : State F R N) (hi : Inv job files fs0 s) (hs : Steps job k s t n) : Inv job files fs0 t := by
  induction hs with
  | refl => exact hi
  | step t u n _ hst ih => exact inv_step job files hinj fs0 k t u ih hst

/-- **C38 (results).** Whatever the schedule, the order of the files and the number of workers: when the run has finished, exactly one
result was received for each file, namely that of its commands on its original contents; each file was rewritten exactly once; and
no other file was touched. The files must be different files of the file system. -/
theorem C38_schedule_independent (job : Job F R N) (files order : List F) (horder : order.Perm files) (hinj : (files.map job.path).Nodup)
    (fs0 : N → Option Bytes) (workers n : Nat) (s : State F R N)
    (hrun : Steps job files.length (initial fs0 order workers) s n) (hfin : finished files.length s) :
    s.got.Perm (files.map fun f => (f, (job.work f (fs0 (job.path f))).2)) ∧
    (∀ f ∈ files, s.fs (job.path f) = rewritten job fs0 f) ∧
    (∀ m, m ∉ files.map job.path → s.fs m = fs0 m) := by
  have hi := inv_steps job files hinj fs0 files.length n _ s (inv_initial job files order fs0 workers horder) hrun
  obtain ⟨hp, hpend, hseen, hres, hother, hclosed⟩ := hi
  have hlen := hp.length_eq
  simp only [done, List.length_append, List.length_map] at hlen
  have hg := hfin.2
  have hp0 : pending s = [] := List.length_eq_zero_iff.mp (by omega)
  have hb0 : s.buf = [] := List.length_eq_zero_iff.mp (by omega)
  have hw0 : s.workers.flatMap doneW = [] := List.length_eq_zero_iff.mp (by omega)
  have hd : done s = s.got := by simp [done, hb0, hw0]
  rw [hp0, hd, List.nil_append] at hp
  rw [hd] at hres
  refine ⟨?_, ?_, hother⟩
  · have hgot : s.got = (s.got.map (·.1)).map fun f => (f, (job.work f (fs0 (job.path f))).2) := by
      rw [List.map_map]
      conv => lhs; rw [← List.map_id' s.got]
      apply List.map_congr_left
      intro q hq
      show q = (q.1, _)
      rw [← (hres q hq).1]
    rw [hgot]
    exact hp.map _
  · intro f hf
    obtain ⟨q, hq, rfl⟩ := List.mem_map.mp (hp.mem_iff.mpr hf)
    exact (hres q hq).2

/-- **C38 (no deadlock).** As long as the run has not finished, some step is possible. -/
theorem C38_no_deadlock (job : Job F R N) (files order : List F) (horder : order.Perm files) (hinj : (files.map job.path).Nodup)
    (fs0 : N → Option Bytes) (workers n : Nat) (hw : 1 ≤ workers) (s : State F R N)
    (hrun : Steps job files.length (initial fs0 order workers) s n) (hfin : ¬ finished files.length s) :
    ∃ t, Step job files.length s t := by
  have hi := inv_steps job files hinj fs0 files.length n _ s (inv_initial job files order fs0 workers horder) hrun
  have hex : ∀ (m : Nat) (s : State F R N), Steps job files.length (initial fs0 order workers) s m →
      (s.closed = false → ∀ w ∈ s.workers, w ≠ .exited) ∧ s.workers.length = workers := by
    intro m s hs
    induction hs with
    | refl => exact ⟨fun _ w h => by rw [(List.mem_replicate.mp h).2]; exact (fun h => nomatch h), by simp [initial]⟩
    | step t u m _ hst ih =>
      obtain ⟨h1, h2⟩ := ih
      cases hst with
      | send f rest a b e1 e2 =>
        rw [e2] at h1 h2
        refine ⟨fun hc w hm => ?_, by simpa using h2⟩
        simp only [List.mem_append, List.mem_cons] at hm
        rcases hm with hm | rfl | hm
        · exact h1 hc w (by simp [hm])
        · exact (fun h => nomatch h)
        · exact h1 hc w (by simp [hm])
      | close e1 e2 => exact ⟨(fun h => nomatch h), h2⟩
      | exit a b e1 e2 =>
        rw [e2] at h2
        refine ⟨fun hc => ?_, by simpa using h2⟩
        rw [show t.closed = false from hc] at e1
        cases e1
      | read f a b e2 =>
        rw [e2] at h1 h2
        refine ⟨fun hc w hm => ?_, by simpa using h2⟩
        simp only [List.mem_append, List.mem_cons] at hm
        rcases hm with hm | rfl | hm
        · exact h1 hc w (by simp [hm])
        · exact (fun h => nomatch h)
        · exact h1 hc w (by simp [hm])
      | write f d a b e2 =>
        rw [e2] at h1 h2
        refine ⟨fun hc w hm => ?_, by simpa using h2⟩
        simp only [List.mem_append, List.mem_cons] at hm
        rcases hm with hm | rfl | hm
        · exact h1 hc w (by simp [hm])
        · exact (fun h => nomatch h)
        · exact h1 hc w (by simp [hm])
      | push f r a b e2 _ =>
        rw [e2] at h1 h2
        refine ⟨fun hc w hm => ?_, by simpa using h2⟩
        simp only [List.mem_append, List.mem_cons] at hm
        rcases hm with hm | rfl | hm
        · exact h1 hc w (by simp [hm])
        · exact (fun h => nomatch h)
        · exact h1 hc w (by simp [hm])
      | receive q rest e1 e2 e3 => exact ⟨h1, h2⟩
  obtain ⟨hexit, hwl⟩ := hex n s hrun
  obtain ⟨hp, hpend, hseen, hres, hother, hclosed⟩ := hi
  have hlen := hp.length_eq
  simp only [done, List.length_append, List.length_map] at hlen
  -- a worker that is neither waiting nor has exited can go on
  by_cases hbusy : ∃ w ∈ s.workers, w ≠ .idle ∧ w ≠ .exited
  · obtain ⟨w, hm, h1, h2⟩ := hbusy
    obtain ⟨a, b, hab⟩ := List.append_of_mem hm
    cases w with
    | idle => exact absurd rfl h1
    | exited => exact absurd rfl h2
    | got f => exact ⟨_, .read s f a b hab⟩
    | read f d => exact ⟨_, .write s f d a b hab⟩
    | ready f r =>
      refine ⟨_, .push s f r a b hab ?_⟩
      have : 1 ≤ (s.workers.flatMap doneW).length := by rw [hab]; simp [doneW]; omega
      omega
  · have hq : ∀ w ∈ s.workers, w = .idle ∨ w = .exited := by
      intro w hm
      cases w with
      | idle => exact .inl rfl
      | exited => exact .inr rfl
      | got f => exact absurd ⟨_, hm, (fun h => nomatch h), (fun h => nomatch h)⟩ hbusy
      | read f d => exact absurd ⟨_, hm, (fun h => nomatch h), (fun h => nomatch h)⟩ hbusy
      | ready f r => exact absurd ⟨_, hm, (fun h => nomatch h), (fun h => nomatch h)⟩ hbusy
    cases hc : s.closed with
    | false =>
      cases hts : s.toSend with
      | nil => exact ⟨_, .close s hts hc⟩
      | cons f rest =>
        cases hws : s.workers with
        | nil => rw [hws] at hwl; simp at hwl; omega
        | cons w ws =>
          have hm : w ∈ s.workers := by rw [hws]; simp
          rcases hq w hm with rfl | rfl
          · exact ⟨_, .send s f rest [] ws hts hws⟩
          · exact absurd rfl (hexit hc _ hm)
    | true =>
      have hp0 : pending s = [] := by
        unfold pending
        rw [hclosed hc, List.nil_append, List.flatMap_eq_nil_iff]
        intro w hm
        rcases hq w hm with rfl | rfl <;> rfl
      have hd0 : s.workers.flatMap doneW = [] := by
        rw [List.flatMap_eq_nil_iff]
        intro w hm
        rcases hq w hm with rfl | rfl <;> rfl
      rw [hp0, hd0] at hlen
      simp only [List.length_nil] at hlen
      have hg : s.got.length ≠ files.length := fun h => hfin ⟨hc, h⟩
      cases hb : s.buf with
      | nil => rw [hb] at hlen; simp at hlen; omega
      | cons q rest => exact ⟨_, .receive s q rest hc hb (by omega)⟩

/-- weight of a worker -/
def weightW : Worker F R → Nat
  | .idle => 1
  | .got _ => 5
  | .read _ _ => 4
  | .ready _ _ => 3
  | .exited => 0

def weight (s : State F R N) : Nat :=
  5 * s.toSend.length + (if s.closed then 0 else 1) + (s.workers.map weightW).sum + s.buf.length

theorem weight_step (job : Job F R N) (k : Nat) (s t : State F R N) (h : Step job k s t) : weight t < weight s := by
  cases h with
  | send f rest a b h1 h2 => simp [weight, h1, h2, weightW]; omega
  | close h1 h2 => simp [weight, h2]
  | exit a b h1 h2 => simp [weight, h2, weightW]
  | read f a b h2 => simp [weight, h2, weightW]
  | write f d a b h2 => simp [weight, h2, weightW]
  | push f r a b h2 _ => simp [weight, h2, weightW]; omega
  | receive q rest h1 h2 h3 => simp [weight, h2]

/-- **C38 (termination).** Every run has at most 5 steps per file, one per worker and one more. -/
theorem C38_terminates (job : Job F R N) (order : List F) (k workers n : Nat) (fs0 : N → Option Bytes) (s : State F R N)
    (hrun : Steps job k (initial fs0 order workers) s n) : n ≤ 5 * order.length + workers + 1 := by
  have : n + weight s ≤ weight (initial (R := R) fs0 order workers) := by
    induction hrun with
    | refl => simp
    | step t u n _ hst ih => have := weight_step job k t u hst; omega
  have h0 : weight (initial (R := R) fs0 order workers) = 5 * order.length + 1 + workers := by
    simp [weight, initial, weightW]
  omega

/-- **C38 (exit code).** The exit code does not depend on the order of the results. -/
theorem C38_exit_code (stdout nonReadonly : Bool) (l : List Outcome') (rs : List Outcome') (h : rs.Perm l) :
    exitCode stdout nonReadonly rs = exitCode stdout nonReadonly l ∧
    (exitCode stdout nonReadonly l = 2 ↔ ∃ r ∈ l, r.hasErrs = true) ∧
    (exitCode stdout nonReadonly l = 3 ↔ (∀ r ∈ l, r.hasErrs = false ∧ r.modified = false) ∧ stdout = false ∧ nonReadonly = true) ∧
    exitCode stdout nonReadonly l ∈ [0, 2, 3] := by
  have hfold : ∀ (p : Outcome' → Bool) (l : List Outcome') (b : Bool), l.foldl (fun b r => b || p r) b = (b || l.any p) := by
    intro p l
    induction l with
    | nil => intro b; simp
    | cons r l ih => intro b; rw [List.foldl_cons, ih]; simp [Bool.or_assoc]
  have hE : ∀ l, exitCode stdout nonReadonly l = if l.any (·.hasErrs) then 2 else if l.any (·.modified) || stdout then 0
      else if nonReadonly then 3 else 0 := by
    intro l
    unfold exitCode
    dsimp only
    rw [hfold (·.hasErrs), hfold (·.modified)]
    rfl
  refine ⟨?_, ?_, ?_, ?_⟩
  · rw [hE, hE]
    have hany : ∀ p : Outcome' → Bool, rs.any p = l.any p := by
      intro p
      rw [Bool.eq_iff_iff, List.any_eq_true, List.any_eq_true]
      exact ⟨fun ⟨x, hx, hp⟩ => ⟨x, h.mem_iff.mp hx, hp⟩, fun ⟨x, hx, hp⟩ => ⟨x, h.mem_iff.mpr hx, hp⟩⟩
    rw [hany, hany]
  · rw [hE]
    cases h1 : l.any (·.hasErrs) with
    | true => simpa using h1
    | false =>
      have : ¬ ∃ r ∈ l, r.hasErrs = true := by simpa using h1
      simp only [Bool.false_eq_true, if_false, this, iff_false]
      cases l.any (·.modified) <;> cases stdout <;> cases nonReadonly <;> simp
  · rw [hE]
    cases h1 : l.any (·.hasErrs) with
    | true =>
      have : ∃ r ∈ l, r.hasErrs = true := by simpa using h1
      obtain ⟨r, hr, he⟩ := this
      constructor
      · intro h; cases h
      · rintro ⟨h, _⟩; rw [(h r hr).1] at he; cases he
    | false =>
      have h1' : ∀ r ∈ l, r.hasErrs = false := by simpa using h1
      cases h2 : l.any (·.modified) with
      | true =>
        have : ∃ r ∈ l, r.modified = true := by simpa using h2
        obtain ⟨r, hr, he⟩ := this
        constructor
        · intro h; cases h
        · rintro ⟨h, _⟩; rw [(h r hr).2] at he; cases he
      | false =>
        have h2' : ∀ r ∈ l, r.modified = false := by simpa using h2
        have : ∀ r ∈ l, r.hasErrs = false ∧ r.modified = false := fun r hr => ⟨h1' r hr, h2' r hr⟩
        cases stdout <;> cases nonReadonly <;> simp [this] <;> exact this
  · rw [hE]
    cases l.any (·.hasErrs) <;> cases l.any (·.modified) <;> cases stdout <;> cases nonReadonly <;> simp

/-! #### cases -/

/-- two files with different names, one worker: a complete run -/
def exJob : Job Bool Nat Bool := ⟨id, fun _ d => (d.map (1 :: ·), 0)⟩

example : ([true, false].map exJob.path).Nodup := by decide

/-- the file system with one empty file -/
def oneFile : Unit → Option Bytes := fun _ => some []

/-- two keys of `commandsByFile` that name the same file, e.g. `a/BUILD` and `a/BUILD.bazel` (buildozer.go:1148-1161 tries all names of build files) -/
def aliasJob : Job Bool Nat Unit := ⟨fun _ => (), fun b d => (d.map ((if b then 1 else 2) :: ·), 0)⟩

/-- **C38 (finding).** If two keys name the same file (`//a:x` gives `a/BUILD`, `//a/...` may give `a/BUILD.bazel`, and both are found
under either name), two workers can both read it before either writes: one of the two changes is lost. -/
theorem C38_alias_witness : ∃ (s : State Bool Nat Unit) (n : Nat),
    Steps aliasJob 2 (initial oneFile [true, false] 2) s n ∧ finished 2 s ∧ s.fs () = some [2] := by
  have w : ∀ (fs : Unit → Option Bytes) d, writeTo fs () (some d) () = some d := by intro fs d; simp [writeTo]
  have run := Steps.step _ _ _ _ (.step _ _ _ _ (.step _ _ _ _ (.step _ _ _ _ (.step _ _ _ _ (.step _ _ _ _ (.step _ _ _ _ (.step _ _ _ _
      (.step _ _ _ _ (.step _ _ _ _ (.step _ _ _ _ (.refl (job := aliasJob) (numFiles := 2) (initial oneFile [true, false] 2))
      (.send _ true [false] [] [.idle] rfl rfl)) (.send _ false [] [.got true] [] rfl rfl)) (.close _ rfl rfl))
      (.read _ true [] [.got false] rfl)) (.read _ false [.read true (some [])] [] rfl))
      (.write _ true (some []) [] [.read false (some [])] rfl)) (.write _ false (some []) [.ready true 0] [] rfl))
      (.push _ true 0 [] [.ready false 0] rfl (by decide))) (.push _ false 0 [.idle] [] rfl (by decide)))
      (.receive _ (true, 0) [(false, 0)] rfl rfl (by decide))) (.receive _ (false, 0) [] rfl rfl (by decide))
  exact ⟨_, _, run, ⟨rfl, rfl⟩, w _ _⟩

end C38
end Verif.Props.Buildozer
