import Verif.Model.Buildifier
import Verif.Proofs.Strings
/-
C41: what happens to one file in each mode. C42: flags.
-/
namespace Verif.Props.Buildifier
open Verif Verif.Buildifier

/-! ### C41 -/

section C41
variable {σ : Type}

/-- the formatted contents of a file that could be parsed -/
def formatted (env : Env σ) (f : σ) : Bytes := env.format (env.lint f).2

/-- the number of warnings that remain -/
def warnings (env : Env σ) (f : σ) : Nat := (env.lint f).1

/-- nothing was written to the file or to the standard output, and no diff was shown -/
def NoEffect (e : Effect) : Prop := e.written = none ∧ e.printed = none ∧ e.shown = none

/-- **C41 (syntax errors).** In every mode a file that cannot be parsed is left alone, the exit code is 1 and the file is reported as
neither valid nor formatted. -/
theorem C41_parse_error (mode : Bytes) (env : Env σ) (stdin : Bool) (data : Bytes) (h : env.parse data = none) :
    (processFile mode env stdin data).exit = 1 ∧ NoEffect (processFile mode env stdin data) ∧
    (processFile mode env stdin data).diag = ⟨false, false, 0⟩ := by
  unfold processFile
  rw [h]
  exact ⟨rfl, ⟨rfl, rfl, rfl⟩, rfl⟩

/-- **C41 (check mode).** Nothing is written; the exit code is 4 iff the formatted contents differ from the contents or there are warnings, and
otherwise 0; the file is reported as not formatted iff they differ. -/
theorem C41_check (env : Env σ) (stdin : Bool) (data : Bytes) (f : σ) (h : env.parse data = some f) :
    NoEffect (processFile b!"check" env stdin data) ∧
    ((processFile b!"check" env stdin data).exit = 4 ↔ formatted env f ≠ data ∨ 0 < warnings env f) ∧
    ((processFile b!"check" env stdin data).exit = 0 ↔ formatted env f = data ∧ warnings env f = 0) ∧
    (processFile b!"check" env stdin data).diag = ⟨decide (formatted env f = data), true, warnings env f⟩ := by
  unfold processFile
  rw [h]
  dsimp only
  rw [if_pos rfl]
  by_cases hd : data = env.format (env.lint f).2
  · rw [if_neg (fun h => h hd)]
    refine ⟨⟨rfl, rfl, rfl⟩, ?_, ?_, ?_⟩
    · dsimp only [formatted, warnings]
      rw [← hd]
      by_cases hw : 0 < (env.lint f).1 <;> simp [hw]
    · dsimp only [formatted, warnings]
      rw [← hd]
      by_cases hw : 0 < (env.lint f).1
      · simp [hw]; omega
      · simp [hw]; omega
    · have : formatted env f = data := hd.symm
      simp [this, warnings]
  · rw [if_pos hd]
    have hd' : env.format (env.lint f).2 ≠ data := fun h => hd h.symm
    exact ⟨⟨rfl, rfl, rfl⟩, by simp [formatted, hd'], by simp [formatted, hd'], by simp [formatted, warnings, hd']⟩

/-- **C41 (fix mode).** The file is written iff the formatted contents differ, and they are what is written; nothing goes to the standard
output; the exit code is 3 if writing failed, otherwise 4 iff there are warnings. -/
theorem C41_fix (env : Env σ) (stdin : Bool) (data : Bytes) (f : σ) (h : env.parse data = some f) :
    (∀ new, (processFile b!"fix" env stdin data).written = some new ↔ new = formatted env f ∧ new ≠ data) ∧
    (processFile b!"fix" env stdin data).printed = none ∧ (processFile b!"fix" env stdin data).shown = none ∧
    (processFile b!"fix" env stdin data).exit = (if formatted env f ≠ data ∧ env.writeOk = false then 3
      else if 0 < warnings env f then 4 else 0) ∧
    (processFile b!"fix" env stdin data).diag = ⟨true, true, warnings env f⟩ := by
  unfold processFile
  rw [h]
  dsimp only
  rw [if_neg (by decide), if_neg (by decide), if_neg (by decide), if_pos rfl]
  by_cases hd : data = env.format (env.lint f).2
  · rw [if_pos hd]
    refine ⟨fun new => ?_, rfl, rfl, ?_, rfl⟩
    · constructor
      · intro h; cases h
      · rintro ⟨h1, h2⟩
        exact absurd (h1.trans hd.symm) h2
    · have : formatted env f = data := hd.symm
      simp only [this, ne_eq, not_true, false_and, if_false]
      rfl
  · rw [if_neg hd]
    have hd' : formatted env f ≠ data := fun h => hd h.symm
    have hn : ∀ new, (some (env.format (env.lint f).2) = some new) ↔ new = formatted env f ∧ new ≠ data := by
      intro new
      constructor
      · intro h; cases h; exact ⟨rfl, hd'⟩
      · rintro ⟨rfl, _⟩; rfl
    cases hw : env.writeOk with
    | false => exact ⟨hn, rfl, rfl, by simp [hd'], rfl⟩
    | true => exact ⟨hn, rfl, rfl, by simp only [Bool.true_eq_false, and_false, if_false]; rfl, rfl⟩

/-- **C41 (diff mode).** Nothing is written; a diff of the contents and the formatted contents is shown iff they differ and the temporary
files could be written; the exit code is 0 only if there are no warnings and the contents are equal or the diff program succeeded. -/
theorem C41_diff (env : Env σ) (stdin : Bool) (data : Bytes) (f : σ) (h : env.parse data = some f) :
    (processFile b!"diff" env stdin data).written = none ∧ (processFile b!"diff" env stdin data).printed = none ∧
    (∀ p, (processFile b!"diff" env stdin data).shown = some p ↔ p = (data, formatted env f) ∧ formatted env f ≠ data ∧
      env.tempOk (formatted env f) = true ∧ (stdin = true → env.tempOk data = true)) ∧
    ((processFile b!"diff" env stdin data).exit = 0 ↔ warnings env f = 0 ∧ (formatted env f = data ∨
      (processFile b!"diff" env stdin data).shown ≠ none ∧ env.showOk = true)) ∧
    ((processFile b!"diff" env stdin data).exit = 3 ↔ formatted env f ≠ data ∧ (processFile b!"diff" env stdin data).shown = none) ∧
    (processFile b!"diff" env stdin data).diag = ⟨true, true, warnings env f⟩ := by
  unfold processFile
  rw [h]
  dsimp only
  rw [if_neg (by decide), if_pos rfl]
  have hex : (if 0 < (env.lint f).1 then 4 else 0) = 0 ↔ warnings env f = 0 := by
    show (if 0 < warnings env f then 4 else 0) = 0 ↔ warnings env f = 0
    by_cases h0 : 0 < warnings env f <;> simp [h0] <;> omega
  have hex3 : ¬ (if 0 < (env.lint f).1 then 4 else 0) = 3 := by split <;> simp
  by_cases hd : data = env.format (env.lint f).2
  · rw [if_pos hd]
    refine ⟨rfl, rfl, fun p => ?_, ?_, ?_, rfl⟩
    · constructor
      · intro h; cases h
      · rintro ⟨_, h, _⟩; exact absurd hd.symm h
    · exact hex.trans ⟨fun h => ⟨h, .inl hd.symm⟩, fun h => h.1⟩
    · exact ⟨fun h => absurd h hex3, fun h => absurd hd.symm h.1⟩
  · rw [if_neg hd]
    have hd' : formatted env f ≠ data := fun h => hd h.symm
    cases h1 : env.tempOk (env.format (env.lint f).2) with
    | false =>
      have h1' : env.tempOk (formatted env f) = false := h1
      refine ⟨rfl, rfl, fun p => ?_, ?_, ?_, rfl⟩
      · simp [h1']
      · simp [hd']
      · simp [hd']
    | true =>
      have h1' : env.tempOk (formatted env f) = true := h1
      simp only [Bool.not_true, Bool.false_eq_true, if_false]
      by_cases h2 : stdin = true ∧ env.tempOk data = false
      · rw [if_pos (by simp [h2.1, h2.2])]
        refine ⟨rfl, rfl, fun p => ?_, ?_, ?_, rfl⟩
        · simp [h2.1, h2.2]
        · simp [hd']
        · simp [hd']
      · rw [if_neg (by simp only [Bool.and_eq_true, Bool.not_eq_true']; exact h2)]
        have h2' : stdin = true → env.tempOk data = true := by
          intro hs
          cases ht : env.tempOk data with
          | true => rfl
          | false => exact absurd ⟨hs, ht⟩ h2
        have hn : ∀ p, (some (data, env.format (env.lint f).2) = some p) ↔ p = (data, formatted env f) ∧ formatted env f ≠ data ∧
            env.tempOk (formatted env f) = true ∧ (stdin = true → env.tempOk data = true) := by
          intro p
          constructor
          · intro h; cases h; exact ⟨rfl, hd', h1', h2'⟩
          · rintro ⟨rfl, _⟩; rfl
        cases h3 : env.showOk with
        | false =>
          refine ⟨rfl, rfl, hn, ?_, ?_, rfl⟩
          · simp [hd']
          · simp
        | true =>
          refine ⟨rfl, rfl, hn, ?_, ?_, rfl⟩
          · refine hex.trans ⟨fun h => ⟨h, .inr ⟨(fun h => nomatch h), rfl⟩⟩, fun h => h.1⟩
          · exact ⟨fun h => absurd h hex3, fun h => nomatch h.2⟩

/-- **C41 (standard input and print_if_changed).** `pipe` always prints the formatted contents, `print_if_changed` iff they differ; neither
writes to a file. -/
theorem C41_print (env : Env σ) (stdin : Bool) (data : Bytes) (f : σ) (h : env.parse data = some f) :
    (processFile b!"pipe" env stdin data).printed = some (formatted env f) ∧ (processFile b!"pipe" env stdin data).written = none ∧
    (processFile b!"pipe" env stdin data).exit = (if 0 < warnings env f then 4 else 0) ∧
    (∀ new, (processFile b!"print_if_changed" env stdin data).printed = some new ↔ new = formatted env f ∧ new ≠ data) ∧
    (processFile b!"print_if_changed" env stdin data).written = none ∧
    (processFile b!"print_if_changed" env stdin data).exit = (if formatted env f ≠ data ∧ env.stdoutOk = false then 3
      else if 0 < warnings env f then 4 else 0) := by
  have hpipe : processFile b!"pipe" env stdin data =
      ⟨⟨true, true, (env.lint f).1⟩, if 0 < (env.lint f).1 then 4 else 0, none, some (env.format (env.lint f).2), none⟩ := by
    unfold processFile
    rw [h]
    dsimp only
    rw [if_neg (by decide), if_neg (by decide), if_pos rfl]
  rw [hpipe]
  refine ⟨rfl, rfl, rfl, ?_⟩
  unfold processFile
  rw [h]
  dsimp only
  rw [if_neg (by decide), if_neg (by decide), if_neg (by decide), if_neg (by decide), if_pos rfl]
  by_cases hd : data = env.format (env.lint f).2
  · rw [if_pos hd]
    refine ⟨fun new => ?_, rfl, ?_⟩
    · constructor
      · intro h; cases h
      · rintro ⟨h1, h2⟩
        exact absurd (h1.trans hd.symm) h2
    · have : formatted env f = data := hd.symm
      simp only [this, ne_eq, not_true, false_and, if_false]
      rfl
  · rw [if_neg hd]
    have hd' : formatted env f ≠ data := fun h => hd h.symm
    have hn : ∀ new, (some (env.format (env.lint f).2) = some new) ↔ new = formatted env f ∧ new ≠ data := by
      intro new
      constructor
      · intro h; cases h; exact ⟨rfl, hd'⟩
      · rintro ⟨rfl, _⟩; rfl
    cases hw : env.stdoutOk with
    | false => exact ⟨hn, rfl, by simp [hd']⟩
    | true => exact ⟨hn, rfl, by simp only [Bool.true_eq_false, and_false, if_false]; rfl⟩

/-- **C41 (who writes).** A file is written only in fix mode, after parsing it, and only with different contents. -/
theorem C41_only_fix_writes (mode : Bytes) (env : Env σ) (stdin : Bool) (data new : Bytes)
    (h : (processFile mode env stdin data).written = some new) :
    mode = b!"fix" ∧ new ≠ data ∧ ∃ f, env.parse data = some f ∧ new = formatted env f := by
  by_cases hm : mode = b!"fix"
  · subst hm
    cases hp : env.parse data with
    | none => rw [(C41_parse_error _ env stdin data hp).2.1.1] at h; cases h
    | some f =>
      have := ((C41_fix env stdin data f hp).1 new).mp h
      exact ⟨rfl, this.2, f, rfl, this.1⟩
  · exfalso
    revert h
    unfold processFile
    cases env.parse data with
    | none => intro h; cases h
    | some f =>
      dsimp only
      split
      · split <;> (intro h; cases h)
      · split
        · split
          · intro h; cases h
          · split
            · intro h; cases h
            · split
              · intro h; cases h
              · split <;> (intro h; cases h)
        · split
          · intro h; cases h
          · split
            · split
              · intro h; cases h
              · split <;> (intro h; cases h)
            · intro h; cases h

/-- **C41 (standard input).** Standard input is used iff no file is named or just `-`; then nothing is written to files. -/
theorem C41_stdin (args : List Bytes) (mode : Bytes) (env : Env σ) (data : Bytes) :
    (useStdin args = true ↔ args = [] ∨ args = [b!"-"]) ∧ (processFile (stdinMode mode) env true data).written = none := by
  refine ⟨?_, ?_⟩
  · unfold useStdin
    rw [Bool.or_eq_true, List.isEmpty_iff, decide_eq_true_eq]
  · cases h : (processFile (stdinMode mode) env true data).written with
    | none => rfl
    | some new =>
      have := (C41_only_fix_writes _ env true data new h).1
      unfold stdinMode at this
      split at this
      · cases this
      · exact absurd this ‹_›

/-- **C41 (exit code of a check).** Checking files without `--format` gives 0 iff each file can be read and parsed, has no warnings and is
formatted (and the diff program does not fail at the end, which in this mode it is never asked to run); in every mode, with `--format` the
exit code is 0 unless the diff program fails. -/
theorem C41_run_check (envs : List (Env σ × Option Bytes)) (format : Bytes) :
    let results := envs.map fun p => p.2.map (processFile b!"check" p.1 false)
    (runExit [] (processAll results).2 true = 0 ↔ ∀ p ∈ envs, ∃ data f, p.2 = some data ∧ p.1.parse data = some f ∧
      formatted p.1 f = data ∧ warnings p.1 f = 0) ∧
    (format ≠ [] → ∀ code, runExit format code true = 0) ∧
    (success (processAll results).1 = true ↔ ∀ p ∈ envs, ∀ data, p.2 = some data → ∃ f, p.1.parse data = some f ∧
      formatted p.1 f = data ∧ warnings p.1 f = 0) := by
  intro results
  have hone : ∀ p : Env σ × Option Bytes, ∀ data, p.2 = some data → ((processFile b!"check" p.1 false data).exit = 0 ↔
      ∃ f, p.1.parse data = some f ∧ formatted p.1 f = data ∧ warnings p.1 f = 0) := by
    intro p data _
    cases hp : p.1.parse data with
    | none => rw [(C41_parse_error _ p.1 false data hp).1]; simp
    | some f => rw [(C41_check p.1 false data f hp).2.2.1]; simp
  have hdiag : ∀ p : Env σ × Option Bytes, ∀ data, p.2 = some data →
      (((processFile b!"check" p.1 false data).diag.formatted && (processFile b!"check" p.1 false data).diag.warnings == 0) = true ↔
      ∃ f, p.1.parse data = some f ∧ formatted p.1 f = data ∧ warnings p.1 f = 0) := by
    intro p data _
    cases hp : p.1.parse data with
    | none => rw [(C41_parse_error _ p.1 false data hp).2.2]; simp
    | some f => rw [(C41_check p.1 false data f hp).2.2.2]; simp
  have hgen : ∀ (l : List (Option Effect)) (s : List Diag × Nat),
      ((l.foldl processStep s).2 = 0 ↔ (∀ o ∈ l, ∃ e, o = some e ∧ e.exit = 0) ∧ (s.2 = 0 ∨ False)) ∧
      (l.foldl processStep s).1 = s.1 ++ (l.filterMap id).map (·.diag) := by
    intro l
    induction l with
    | nil => intro s; simp
    | cons o l ih =>
      intro s
      rw [List.foldl_cons]
      obtain ⟨h1, h2⟩ := ih (processStep s o)
      refine ⟨?_, by rw [h2]; cases o <;> simp [processStep]⟩
      rw [h1]
      cases o with
      | none => simp [processStep]
      | some e =>
        by_cases he : e.exit = 0
        · simp [processStep, he]
        · simp [processStep, he]
  refine ⟨?_, ?_, ?_⟩
  · show (processAll results).2 = 0 ↔ _
    unfold processAll
    rw [(hgen results ([], 0)).1]
    simp only [true_or, and_true, results, List.forall_mem_map]
    constructor
    · intro h p hp
      obtain ⟨e, he, h0⟩ := h p hp
      cases hd : p.2 with
      | none => rw [hd] at he; cases he
      | some data =>
        rw [hd] at he
        cases he
        obtain ⟨f, hf⟩ := (hone p data hd).mp h0
        exact ⟨data, f, rfl, hf⟩
    · intro h p hp
      obtain ⟨data, f, hd, hf⟩ := h p hp
      exact ⟨_, by rw [hd]; rfl, (hone p data hd).mpr ⟨f, hf⟩⟩
  · intro hf code
    simp [runExit, hf]
  · unfold processAll
    rw [(hgen results ([], 0)).2]
    simp only [success, List.nil_append, List.all_eq_true, List.mem_filterMap, results, id, List.mem_map]
    constructor
    · intro h p hp data hd
      exact (hdiag p data hd).mp (h _ ⟨_, ⟨_, ⟨p, hp, rfl⟩, by rw [hd]; rfl⟩, rfl⟩)
    · rintro h _ ⟨e, ⟨o, ⟨p, hp, rfl⟩, ho⟩, rfl⟩
      cases hd : p.2 with
      | none => rw [hd] at ho; cases ho
      | some data =>
        rw [hd] at ho
        cases ho
        exact (hdiag p data hd).mpr (h p hp data hd)

/-! #### cases -/

/-- a parser that rejects the empty file; formatting appends a newline -/
def exEnv : Env Bytes := ⟨fun d => if d = [] then none else some d, fun f => (0, f), fun f => f.filter (· ≠ 32), fun _ => true, true, true, true⟩

example : (processFile b!"fix" exEnv false b!"a = 1").written = some b!"a=1" := by decide
example : (processFile b!"check" exEnv false b!"a = 1").exit = 4 := by decide
example : (processFile b!"check" exEnv false b!"a=1").exit = 0 := by decide
example : (processFile b!"diff" exEnv false b!"a = 1").shown = some (b!"a = 1", b!"a=1") := by decide

/-- **C41 (finding).** With `--format=json` a file that cannot be read is not mentioned: success is reported and the exit code is 0. -/
theorem C41_unreadable_witness : success (processAll [none]).1 = true ∧ runExit b!"json" (processAll [none]).2 true = 0 ∧
    runExit [] (processAll [none]).2 true = 3 := by decide

end C41

/-! ### C42 -/

/-- the mode that is used: `-d` means `diff` and excludes `--mode`; the default is `fix` -/
inductive ModeFlag (additional : List Bytes) : Bytes → Bool → Bytes → Prop
  | d : ModeFlag additional [] true b!"diff"
  | default : ModeFlag additional [] false b!"fix"
  | given (m) : m ≠ [] → m ∈ [b!"check", b!"diff", b!"fix", b!"print_if_changed"] ∨ m ∈ additional → ModeFlag additional m false m

/-- the lint mode that is used: the default is `off`; `fix` only with `--mode=fix` -/
inductive LintFlag (mode : Bytes) : Bytes → Bytes → Prop
  | default : LintFlag mode [] b!"off"
  | off : LintFlag mode b!"off" b!"off"
  | warn : LintFlag mode b!"warn" b!"warn"
  | fix : mode = b!"fix" → LintFlag mode b!"fix" b!"fix"

/-- **C42 (modes).** The flags `--mode`, `--lint` and `-d` are accepted exactly in the documented combinations, and give the documented modes. -/
theorem C42_modes (mode lint : Bytes) (dflag : Bool) (additional : List Bytes) (m l : Bytes) :
    validateModes mode lint dflag additional = some (m, l) ↔ ModeFlag additional mode dflag m ∧ LintFlag m lint l := by
  have hlint : ∀ m', (if lint = [] then some (m', b!"off")
      else if lint = b!"off" ∨ lint = b!"warn" then some (m', lint)
      else if lint = b!"fix" then if m' ≠ b!"fix" then none else some (m', lint)
      else none) = some (m, l) ↔ m' = m ∧ LintFlag m lint l := by
    intro m'
    by_cases h1 : lint = []
    · subst h1
      rw [if_pos rfl]
      constructor
      · intro h; cases h; exact ⟨rfl, .default⟩
      · rintro ⟨rfl, h⟩; cases h; rfl
    · rw [if_neg h1]
      by_cases h2 : lint = b!"off" ∨ lint = b!"warn"
      · rw [if_pos h2]
        constructor
        · intro h; cases h
          rcases h2 with h2 | h2
          · rw [h2]; exact ⟨rfl, .off⟩
          · rw [h2]; exact ⟨rfl, .warn⟩
        · rintro ⟨rfl, h⟩
          cases h with
          | default => exact absurd rfl h1
          | off => rfl
          | warn => rfl
          | fix _ => rcases h2 with h2 | h2 <;> cases h2
      · rw [if_neg h2]
        by_cases h3 : lint = b!"fix"
        · rw [if_pos h3]
          by_cases h4 : m' = b!"fix"
          · rw [if_neg (fun h => h h4)]
            constructor
            · intro h; cases h; rw [h3]; exact ⟨rfl, .fix h4⟩
            · rintro ⟨rfl, h⟩
              rw [h3] at h
              cases h
              rw [h3]
          · rw [if_pos h4]
            constructor
            · intro h; cases h
            · rintro ⟨rfl, h⟩
              rw [h3] at h
              cases h
              exact absurd ‹_› h4
        · rw [if_neg h3]
          constructor
          · intro h; cases h
          · rintro ⟨rfl, h⟩
            cases h with
            | default => exact absurd rfl h1
            | off => exact absurd (.inl rfl) h2
            | warn => exact absurd (.inr rfl) h2
            | fix _ => exact absurd rfl h3
  unfold validateModes
  by_cases hd : dflag = true ∧ mode ≠ []
  · rw [if_pos hd]
    constructor
    · intro h; cases h
    · rintro ⟨h, _⟩
      cases h with
      | d => exact absurd rfl hd.2
      | default => exact absurd hd.1 (by decide)
      | given _ _ => exact absurd hd.1 (by decide)
  · rw [if_neg hd]
    dsimp only
    cases dflag with
    | true =>
      have hm : mode = [] := by
        cases mode with
        | nil => rfl
        | cons c r => exact absurd ⟨rfl, (fun h => nomatch h)⟩ hd
      subst hm
      rw [if_pos rfl, if_neg (by simp), show (if b!"diff" = [] then b!"fix" else b!"diff") = b!"diff" from rfl, hlint]
      constructor
      · rintro ⟨rfl, h⟩; exact ⟨.d, h⟩
      · rintro ⟨h, h'⟩
        cases h
        exact ⟨rfl, h'⟩
    | false =>
      simp only [Bool.false_eq_true, if_false]
      by_cases hm : mode = []
      · subst hm
        rw [if_neg (by simp), if_pos rfl, hlint]
        constructor
        · rintro ⟨rfl, h⟩; exact ⟨.default, h⟩
        · rintro ⟨h, h'⟩
          cases h with
          | default => exact ⟨rfl, h'⟩
          | given _ h0 _ => exact absurd rfl h0
      · by_cases hin : mode ∈ [b!"check", b!"diff", b!"fix", b!"print_if_changed"] ++ additional
        · rw [if_neg (fun h => h.2 hin), if_neg hm, hlint]
          constructor
          · rintro ⟨rfl, h⟩; exact ⟨.given _ hm (List.mem_append.mp hin), h⟩
          · rintro ⟨h, h'⟩
            cases h with
            | default => exact absurd rfl hm
            | given _ _ => exact ⟨rfl, h'⟩
        · rw [if_pos ⟨hm, hin⟩]
          constructor
          · intro h; cases h
          · rintro ⟨h, _⟩
            cases h with
            | default => exact absurd rfl hm
            | given _ _ h => exact absurd (List.mem_append.mpr h) hin

/-- **C42 (type and format).** -/
theorem C42_type_format (t format mode : Bytes) :
    (validateInputType t = true ↔ t = b!"build" ∨ t = b!"bzl" ∨ t = b!"workspace" ∨ t = b!"default" ∨ t = b!"module" ∨ t = b!"auto") ∧
    (validateFormat format mode = true ↔ format = [] ∨ ((format = b!"text" ∨ format = b!"json") ∧ mode = b!"check")) := by
  constructor
  · unfold validateInputType
    simp only [decide_eq_true_eq, List.mem_cons, List.not_mem_nil, or_false]
  · unfold validateFormat
    by_cases h1 : format = []
    · simp [h1]
    · rw [if_neg h1]
      by_cases h2 : format = b!"text" ∨ format = b!"json"
      · rw [if_pos h2, decide_eq_true_eq]
        exact ⟨fun h => .inr ⟨h2, h⟩, fun h => h.elim (fun h => absurd h h1) (fun h => h.2)⟩
      · rw [if_neg h2]
        exact ⟨(fun h => nomatch h), fun h => h.elim (fun h => absurd h h1) (fun h => absurd h.1 h2)⟩

/-- a warning with a modifier -/
def Modified (w : Bytes) : Prop := ∃ x, w = c!"+" :: x ∨ w = c!"-" :: x

/-- The warnings that a list of comma separated words stands for, given the default ones: words without modifiers stand for themselves; with
modifiers, `+x` adds to the default and `-x` removes from it; both kinds cannot be mixed. The added ones come without repetitions, in any
order. -/
inductive WarningsOf (default ws : List Bytes) : Option (List Bytes) → Prop
  | raw : (∀ w ∈ ws, ¬ Modified w) → WarningsOf default ws (some ws)
  | modified (kept added) : (∀ w ∈ ws, Modified w) → kept.Sublist default → (∀ x ∈ default, x ∈ kept ↔ c!"-" :: x ∉ ws) →
      (∀ x, kept.count x = if c!"-" :: x ∈ ws then 0 else default.count x) →
      added.Nodup → (∀ x, x ∈ added ↔ c!"+" :: x ∈ ws) → WarningsOf default ws (some (kept ++ added))
  | mixed (w w') : w ∈ ws → w' ∈ ws → Modified w → ¬ Modified w' → WarningsOf default ws none

theorem plus_minus : (c!"+" : UInt8) ≠ c!"-" := by decide

theorem splitWarnings_spec (ws : List Bytes) :
    (splitWarnings ws).1.Nodup ∧ (∀ x, x ∈ (splitWarnings ws).1 ↔ c!"+" :: x ∈ ws) ∧ (∀ x, x ∈ (splitWarnings ws).2.1 ↔ c!"-" :: x ∈ ws) ∧
    (∀ w, w ∈ (splitWarnings ws).2.2 ↔ w ∈ ws ∧ ¬ Modified w) ∧ ((∀ w ∈ ws, ¬ Modified w) → (splitWarnings ws).2.2 = ws) := by
  induction ws with
  | nil => simp [splitWarnings]
  | cons w ws ih =>
    obtain ⟨h1, h2, h3, h4, h5⟩ := ih
    cases w with
    | nil =>
      have hr : ¬ Modified [] := by rintro ⟨x, h | h⟩ <;> cases h
      have hs : splitWarnings ([] :: ws) = ((splitWarnings ws).1, (splitWarnings ws).2.1, [] :: (splitWarnings ws).2.2) := rfl
      rw [hs]
      refine ⟨h1, fun x => ?_, fun x => ?_, fun w => ?_, fun h => ?_⟩
      · simp [h2]
      · simp [h3]
      · simp only [List.mem_cons, h4]
        constructor
        · rintro (rfl | h)
          · exact ⟨.inl rfl, hr⟩
          · exact ⟨.inr h.1, h.2⟩
        · rintro ⟨rfl | h, h'⟩
          · exact .inl rfl
          · exact .inr ⟨h, h'⟩
      · dsimp only
        rw [h5 (fun w hw => h w (by simp [hw]))]
    | cons c l =>
      by_cases hp : c = c!"+"
      · subst hp
        have hm : Modified (c!"+" :: l) := ⟨l, .inl rfl⟩
        have hs : splitWarnings ((c!"+" :: l) :: ws) = (if l ∈ (splitWarnings ws).1 then (splitWarnings ws).1 else l :: (splitWarnings ws).1,
          (splitWarnings ws).2) := rfl
        rw [hs]
        refine ⟨?_, fun x => ?_, fun x => ?_, fun w => ?_, fun h => absurd hm (h _ (by simp))⟩
        · dsimp only
          split
          · exact h1
          · exact List.nodup_cons.mpr ⟨‹_›, h1⟩
        · dsimp only
          split
          · rename_i hl
            simp only [List.mem_cons, h2]
            constructor
            · exact .inr
            · rintro (h | h)
              · cases h; exact (h2 l).mp hl
              · exact h
          · simp only [List.mem_cons, h2, List.cons.injEq, true_and]
        · simp only [h3, List.mem_cons, List.cons.injEq]
          simp [show ¬ (c!"-" : UInt8) = c!"+" by decide]
        · simp only [h4, List.mem_cons]
          constructor
          · exact fun h => ⟨.inr h.1, h.2⟩
          · rintro ⟨rfl | h, h'⟩
            · exact absurd hm h'
            · exact ⟨h, h'⟩
      · by_cases hmn : c = c!"-"
        · subst hmn
          have hm : Modified (c!"-" :: l) := ⟨l, .inr rfl⟩
          have hs : splitWarnings ((c!"-" :: l) :: ws) = ((splitWarnings ws).1, l :: (splitWarnings ws).2.1, (splitWarnings ws).2.2) := rfl
          rw [hs]
          refine ⟨h1, fun x => ?_, fun x => ?_, fun w => ?_, fun h => absurd hm (h _ (by simp))⟩
          · simp only [h2, List.mem_cons, List.cons.injEq]
            simp [show ¬ (c!"+" : UInt8) = c!"-" by decide]
          · simp only [h3, List.mem_cons, List.cons.injEq, true_and]
          · simp only [h4, List.mem_cons]
            constructor
            · exact fun h => ⟨.inr h.1, h.2⟩
            · rintro ⟨rfl | h, h'⟩
              · exact absurd hm h'
              · exact ⟨h, h'⟩
        · have hr : ¬ Modified (c :: l) := by
            rintro ⟨x, h | h⟩
            · cases h; exact hp rfl
            · cases h; exact hmn rfl
          have hs : splitWarnings ((c :: l) :: ws) = ((splitWarnings ws).1, (splitWarnings ws).2.1, (c :: l) :: (splitWarnings ws).2.2) := by
            conv => lhs; unfold splitWarnings
            dsimp only
            rw [if_neg hp, if_neg hmn]
          rw [hs]
          refine ⟨h1, fun x => ?_, fun x => ?_, fun w => ?_, fun h => ?_⟩
          · simp only [h2, List.mem_cons, List.cons.injEq]
            simp [show ¬ c!"+" = c from fun h => hp h.symm]
          · simp only [h3, List.mem_cons, List.cons.injEq]
            simp [show ¬ c!"-" = c from fun h => hmn h.symm]
          · simp only [List.mem_cons, h4]
            constructor
            · rintro (rfl | h)
              · exact ⟨.inl rfl, hr⟩
              · exact ⟨.inr h.1, h.2⟩
            · rintro ⟨rfl | h, h'⟩
              · exact .inl rfl
              · exact .inr ⟨h, h'⟩
          · dsimp only
            rw [h5 (fun w hw => h w (by simp [hw]))]

/-- **C42 (warnings).** `--warnings` with the words `ws` gives the warnings they stand for, for every order of map iteration; empty and
`default` give the default ones, `all` gives all. -/
theorem C42_warnings (ord : List Bytes → List Bytes) (hord : ∀ l, (ord l).Perm l) (all default : List Bytes) :
    validateWarnings ord [] all default = some default ∧ validateWarnings ord b!"default" all default = some default ∧
    validateWarnings ord b!"all" all default = some all ∧
    ∀ ws : List Bytes, ws ≠ [] → ws ≠ [[]] → ws ≠ [b!"default"] → ws ≠ [b!"all"] → (∀ w ∈ ws, c!"," ∉ w) →
      WarningsOf default ws (validateWarnings ord (joinWith c!"," ws) all default) := by
  refine ⟨rfl, rfl, rfl, ?_⟩
  intro ws hne hne1 hne2 hne3 hw
  have hsplit := splitAll_joinWith c!"," ws hne hw
  have hinj : ∀ v : Bytes, c!"," ∉ v → ws ≠ [v] → joinWith c!"," ws ≠ v := by
    intro v hv hne h
    rw [h, splitAll_single _ _ hv] at hsplit
    exact hne hsplit.symm
  unfold validateWarnings
  rw [if_neg (fun h => h.elim (hinj [] (by simp) hne1) (hinj _ (by decide) hne2)), if_neg (hinj _ (by decide) hne3)]
  dsimp only
  rw [hsplit]
  obtain ⟨h1, h2, h3, h4, h5⟩ := splitWarnings_spec ws
  by_cases hraw : ∃ w ∈ ws, ¬ Modified w
  · obtain ⟨w, hw1, hw2⟩ := hraw
    have hr : (splitWarnings ws).2.2 ≠ [] := fun h => by have := (h4 w).mpr ⟨hw1, hw2⟩; rw [h] at this; cases this
    by_cases hmod : ∃ w ∈ ws, Modified w
    · obtain ⟨v, hv1, hv2⟩ := hmod
      rw [if_pos]
      · exact .mixed v w hv1 hw1 hv2 hw2
      · refine ⟨hr, ?_⟩
        obtain ⟨x, rfl | rfl⟩ := hv2
        · exact .inl (fun h => by have := (h2 x).mpr hv1; rw [h] at this; cases this)
        · exact .inr (fun h => by have := (h3 x).mpr hv1; rw [h] at this; cases this)
    · have hall : ∀ w ∈ ws, ¬ Modified w := fun w hw hm => hmod ⟨w, hw, hm⟩
      have he1 : (splitWarnings ws).1 = [] := by
        rw [List.eq_nil_iff_forall_not_mem]
        intro x hx
        exact hall _ ((h2 x).mp hx) ⟨x, .inl rfl⟩
      have he2 : (splitWarnings ws).2.1 = [] := by
        rw [List.eq_nil_iff_forall_not_mem]
        intro x hx
        exact hall _ ((h3 x).mp hx) ⟨x, .inr rfl⟩
      rw [if_neg (by simp [he1, he2]), if_neg hr, h5 hall]
      exact .raw hall
  · have hall : ∀ w ∈ ws, Modified w := fun w hw => Classical.byContradiction fun h => hraw ⟨w, hw, h⟩
    have he : (splitWarnings ws).2.2 = [] := by
      rw [List.eq_nil_iff_forall_not_mem]
      intro x hx
      exact ((h4 x).mp hx).2 (hall _ ((h4 x).mp hx).1)
    rw [if_neg (by simp [he]), if_pos he]
    refine .modified _ _ hall List.filter_sublist ?_ ?_ ?_ ?_
    · intro x hx
      simp [List.mem_filter, hx, h3]
    · intro x
      by_cases hx : c!"-" :: x ∈ ws
      · rw [if_pos hx]
        apply List.count_eq_zero.mpr
        simp [List.mem_filter, h3, hx]
      · rw [if_neg hx]
        apply List.count_filter
        simp [h3, hx]
    · exact (hord _).nodup_iff.mpr h1
    · intro x
      rw [(hord _).mem_iff, h2]

/-- **C42 (finding).** Adding a warning that is on by default makes it appear twice. -/
theorem C42_twice_witness : validateWarnings id b!"+a" [] [b!"a"] = some [b!"a", b!"a"] := by decide

/-- **C42 (all flags).** The flags are accepted iff the type and the format are valid, the modes are, `--path` and `print_if_changed` are used
with at most one file, and the warnings are valid; this gives the modes and the warnings. -/
theorem C42_config (ord : List Bytes → List Bytes) (all default : List Bytes) (c : Config) (args : List Bytes) (m l : Bytes) (ws : List Bytes) :
    validate ord all default c args = some (m, l, ws) ↔
      c.inputType ∈ [b!"build", b!"bzl", b!"workspace", b!"default", b!"module", b!"auto"] ∧
      (c.format = [] ∨ ((c.format = b!"text" ∨ c.format = b!"json") ∧ c.mode = b!"check")) ∧
      ModeFlag [] c.mode c.dflag m ∧ LintFlag m c.lint l ∧
      ((c.path ≠ [] ∨ m = b!"print_if_changed") → args.length ≤ 1) ∧
      validateWarnings ord (joinWith c!"," (c.warningsList ++ (if c.warnings = [] then [] else [c.warnings]))) all default = some ws := by
  have hws : (if c.warnings ≠ [] then c.warningsList ++ [c.warnings] else c.warningsList) =
      c.warningsList ++ (if c.warnings = [] then [] else [c.warnings]) := by
    by_cases h : c.warnings = [] <;> simp [h]
  obtain ⟨ht, hf⟩ := C42_type_format c.inputType c.format c.mode
  unfold validate
  rw [hws]
  cases h1 : validateInputType c.inputType with
  | false =>
    simp only [Bool.not_false, if_true]
    constructor
    · intro h; cases h
    · rintro ⟨h, _⟩
      rw [h1] at ht
      exact absurd (ht.mpr (by simpa using h)) (by decide)
  | true =>
    rw [h1] at ht
    have ht' : c.inputType ∈ [b!"build", b!"bzl", b!"workspace", b!"default", b!"module", b!"auto"] := by simpa using ht.mp rfl
    simp only [Bool.not_true, Bool.false_eq_true, if_false]
    cases h2 : validateFormat c.format c.mode with
    | false =>
      simp only [Bool.not_false, if_true]
      constructor
      · intro h; cases h
      · rintro ⟨_, h, _⟩
        rw [h2] at hf
        exact absurd (hf.mpr h) (by decide)
    | true =>
      rw [h2] at hf
      have hf' := hf.mp rfl
      simp only [Bool.not_true, Bool.false_eq_true, if_false]
      cases h3 : validateModes c.mode c.lint c.dflag [] with
      | none =>
        constructor
        · intro h; cases h
        · rintro ⟨_, _, hm, hl, _⟩
          have := (C42_modes c.mode c.lint c.dflag [] m l).mpr ⟨hm, hl⟩
          rw [h3] at this
          cases this
      | some p =>
        obtain ⟨m', l'⟩ := p
        have hml := (C42_modes c.mode c.lint c.dflag [] m' l').mp h3
        dsimp only
        by_cases h4 : (c.path ≠ [] ∨ m' = b!"print_if_changed") ∧ 1 < args.length
        · rw [if_pos h4]
          constructor
          · intro h; cases h
          · rintro ⟨_, _, hm, hl, h, _⟩
            have := (C42_modes c.mode c.lint c.dflag [] m l).mpr ⟨hm, hl⟩
            rw [h3] at this
            cases this
            have := h h4.1
            omega
        · rw [if_neg h4]
          have h4' : (c.path ≠ [] ∨ m' = b!"print_if_changed") → args.length ≤ 1 := by
            intro h
            apply Classical.byContradiction
            intro hn
            exact h4 ⟨h, by omega⟩
          cases h5 : validateWarnings ord (joinWith c!"," (c.warningsList ++ (if c.warnings = [] then [] else [c.warnings]))) all default with
          | none =>
            constructor
            · intro h; cases h
            · rintro ⟨_, _, _, _, _, h⟩; cases h
          | some ws' =>
            constructor
            · intro h
              cases h
              exact ⟨ht', hf', hml.1, hml.2, h4', rfl⟩
            · rintro ⟨_, _, hm, hl, _, h⟩
              have := (C42_modes c.mode c.lint c.dflag [] m l).mpr ⟨hm, hl⟩
              rw [h3] at this
              cases this
              cases h
              rfl

/-! #### cases -/

example : validateModes [] [] true [] = some (b!"diff", b!"off") := by decide
example : validateModes b!"check" b!"fix" false [] = none := by decide
example : validateWarnings id b!"+a,-b" [] [b!"b", b!"c"] = some [b!"c", b!"a"] := by decide
example : validateWarnings id b!"+a,b" [] [b!"b", b!"c"] = none := by decide
example : validate id [] [] ⟨b!"auto", b!"json", b!"check", b!"warn", false, [], [], []⟩ [b!"a", b!"b"] = some (b!"check", b!"warn", []) := by decide

end Verif.Props.Buildifier
