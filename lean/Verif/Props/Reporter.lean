import Verif.Model.Reporter

/-! # C56: the Reporter -/

namespace PySwarms.Rep

/-- A usable path argument: given and not empty. -/
def Given (a : Option String) (s : String) : Prop := a = some s ∧ s ≠ ""

/-- No path: not given, or the empty string. -/
def Absent (a : Option String) : Prop := a = none ∨ a = some ""

/-- The documented log file: `log_path`, else `report.log` in the working directory. -/
def LogFile (w : World) (logPath : Option String) (f : String) : Prop :=
  Given logPath f ∨ (Absent logPath ∧ f = w.cwd ++ "/report.log")

/-- The documented choice of the configuration file: `config_path`, else `LOG_CFG`. -/
def ConfigFile (w : World) (configPath : Option String) (p : String) : Prop :=
  Given configPath p ∨ (Absent configPath ∧ Given w.logCfg p)

theorem pyOr_absent {a b : Option String} (h : Absent a) : pyOr a b = b := by
  rcases h with rfl | rfl <;> simp [pyOr]

theorem pyOr_given {a b : Option String} {s : String} (h : Given a s) : pyOr a b = some s := by
  obtain ⟨rfl, h⟩ := h
  simp [pyOr, h]

theorem effectiveLogPath_iff (w : World) (logPath : Option String) (f : String) :
    effectiveLogPath w logPath = f ↔ LogFile w logPath f := by
  unfold effectiveLogPath LogFile
  rcases logPath with _ | s
  · simp [pyOr, Given, Absent, eq_comm]
  · by_cases hs : s = ""
    · subst hs; simp [pyOr, Given, Absent, eq_comm]
    · simp [pyOr, Given, Absent, hs]
      rintro rfl
      exact hs

/-- C56: a configuration file that loads wins, whatever `log_path` is. -/
theorem C56_file (w : World) (logPath configPath : Option String) (p : String) (c : Nat)
    (hp : ConfigFile w configPath p) (hc : w.file p = .applied c) :
    ∃ r, create w logPath configPath = .ok r ∧ r.installed = .fromFile c := by
  have hv : pyOr configPath w.logCfg = some p ∧ p ≠ "" := by
    rcases hp with h | ⟨h1, h2⟩
    · exact ⟨pyOr_given h, h.2⟩
    · exact ⟨(pyOr_absent h1).trans h2.1, h2.2⟩
  refine ⟨{ logPath := effectiveLogPath w logPath, installed := .fromFile c }, ?_, rfl⟩
  unfold create setupLogger
  simp [hv.1, hv.2, hc]

/-- C56: without a configuration file – none named, or the chosen one missing (then `LOG_CFG` is not
tried), or of the wrong type – the defaults are installed, logging to the documented log file; if
that file cannot be opened, `ValueError` is raised. -/
theorem C56_defaults (w : World) (logPath configPath : Option String) (f : String)
    (hf : LogFile w logPath f)
    (h : (∀ p, ¬ ConfigFile w configPath p) ∨
      ∃ p, ConfigFile w configPath p ∧ (w.file p = .missing ∨ w.file p = .badType)) :
    (w.writable f = true → create w logPath configPath =
      .ok { logPath := f, installed := .default f }) ∧
    (w.writable f = false → create w logPath configPath = .error .valueError) := by
  have hset : setupLogger w f configPath = loadDefaults w f := by
    unfold setupLogger
    rcases h with h | ⟨p, hp, hm⟩
    · rcases hcp : pyOr configPath w.logCfg with _ | v
      · rfl
      · by_cases hv : v = ""
        · simp [hv]
        · exfalso
          apply h v
          unfold ConfigFile
          by_cases ha : Absent configPath
          · exact Or.inr ⟨ha, (pyOr_absent ha).symm.trans hcp, hv⟩
          · left
            rcases configPath with _ | s
            · exact absurd (Or.inl rfl) ha
            · have hs : s ≠ "" := fun hs => ha (Or.inr (by rw [hs]))
              simp only [pyOr, hs, if_false, Option.some.injEq] at hcp
              subst hcp
              exact ⟨rfl, hs⟩
    · have hv : pyOr configPath w.logCfg = some p ∧ p ≠ "" := by
        rcases hp with h | ⟨h1, h2⟩
        · exact ⟨pyOr_given h, h.2⟩
        · exact ⟨(pyOr_absent h1).trans h2.1, h2.2⟩
      rcases hm with hm | hm <;> simp [hv.1, hv.2, hm]
  unfold create
  rw [(effectiveLogPath_iff w logPath f).2 hf]
  dsimp only
  rw [hset]
  unfold loadDefaults
  constructor <;> intro hw <;> simp [hw]

/-- C56: any other failure of the chosen file is raised by the constructor. -/
theorem C56_raises (w : World) (logPath configPath : Option String) (p : String) (e : Err)
    (hp : ConfigFile w configPath p) (hc : w.file p = .fails e) :
    create w logPath configPath = .error e := by
  have hv : pyOr configPath w.logCfg = some p ∧ p ≠ "" := by
    rcases hp with h | ⟨h1, h2⟩
    · exact ⟨pyOr_given h, h.2⟩
    · exact ⟨(pyOr_absent h1).trans h2.1, h2.2⟩
  unfold create setupLogger
  simp [hv.1, hv.2, hc]

/-- The three cases above are all cases. -/
theorem C56_exhaustive (w : World) (configPath : Option String) :
    (∀ p, ¬ ConfigFile w configPath p) ∨ ∃ p, ConfigFile w configPath p ∧
      ((w.file p = .missing ∨ w.file p = .badType) ∨ (∃ c, w.file p = .applied c) ∨
        ∃ e, w.file p = .fails e) := by
  by_cases h : ∃ p, ConfigFile w configPath p
  · obtain ⟨p, hp⟩ := h
    refine Or.inr ⟨p, hp, ?_⟩
    rcases w.file p with _ | c | _ | e
    · exact Or.inl (Or.inl rfl)
    · exact Or.inr (Or.inl ⟨c, rfl⟩)
    · exact Or.inl (Or.inr rfl)
    · exact Or.inr (Or.inr ⟨e, rfl⟩)
  · exact Or.inl fun p hp => h ⟨p, hp⟩

/-- C56: over any sequence of calls, exactly the messages with verbosity above the threshold are
printed, in order, and exactly the logged messages are logged; the installed configuration never
changes. -/
theorem C56_output (r : Reporter) (calls : List Call) :
    (run r calls).printed = r.printed ++ calls.filterMap (fun c =>
      match c with
      | .print msg v t => if v > t then some msg else none
      | _ => none) ∧
    (run r calls).logged = r.logged ++ calls.filterMap (fun c =>
      match c with
      | .log msg lvl => some (lvl, msg)
      | _ => none) ∧
    (run r calls).installed = r.installed := by
  induction calls generalizing r with
  | nil => simp [run]
  | cons c calls ih =>
    obtain ⟨h1, h2, h3⟩ := ih (step r c).1
    have hrun : run r (c :: calls) = run (step r c).1 calls := rfl
    rw [hrun, h1, h2, h3]
    cases c with
    | print msg v t =>
      by_cases h : v > t
      · simp [step, h]
      · simp [step, h]
    | log msg lvl => simp [step]
    | pbar k => simp [step]
    | hook => rcases hb : r.bar with _ | ⟨k, j⟩ <;> simp [step, hb]

/-- C56: on a new Reporter, `hook` raises (`AttributeError`) iff no progress bar was created
before. -/
theorem C56_hook (w : World) (logPath configPath : Option String) (r : Reporter)
    (hr : create w logPath configPath = .ok r) (calls : List Call) :
    ((step (run r calls) .hook).2 = .error .attributeError ↔ ∀ k, Call.pbar k ∉ calls) ∧
    ((step (run r calls) .hook).2 = .ok () ↔ ∃ k, Call.pbar k ∈ calls) := by
  have hr0 : r.bar = none := by
    unfold create at hr
    dsimp only at hr
    split at hr
    · cases hr
    · cases hr; rfl
  have key : ∀ (calls : List Call) (r : Reporter),
      (run r calls).bar.isSome = true ↔ r.bar.isSome = true ∨ ∃ k, Call.pbar k ∈ calls := by
    intro calls
    induction calls with
    | nil => intro r; simp [run]
    | cons c calls ih =>
      intro r
      have hrun : run r (c :: calls) = run (step r c).1 calls := rfl
      rw [hrun, ih]
      cases c with
      | print msg v t => by_cases h : v > t <;> simp [step, h]
      | log msg lvl => simp [step]
      | pbar k =>
        simp only [step, Option.isSome_some, true_or, true_iff]
        exact Or.inr ⟨k, by simp⟩
      | hook => rcases hb : r.bar with _ | ⟨k, j⟩ <;> simp [step, hb]
  have h := key calls r
  rw [hr0] at h
  simp only [Option.isSome_none, Bool.false_eq_true, false_or] at h
  rcases hb : (run r calls).bar with _ | ⟨k, j⟩
  · rw [hb] at h
    simp only [Option.isSome_none, Bool.false_eq_true, false_iff, not_exists] at h
    simp only [step, hb]
    refine ⟨by simpa using h, ?_⟩
    simp [h]
  · rw [hb] at h
    simp only [Option.isSome_some, true_iff] at h
    simp only [step, hb]
    obtain ⟨k', hk'⟩ := h
    constructor
    · constructor
      · intro h0; cases h0
      · intro h0; exact absurd hk' (h0 k')
    · exact ⟨fun _ => ⟨k', hk'⟩, fun _ => trivial⟩

/-! ## Examples -/

/-- A world with one configuration file, named by `LOG_CFG`. -/
def exWorld : World where
  cwd := "/work"
  logCfg := some "/etc/log.yml"
  file := fun p => if p = "/etc/log.yml" then .applied 1 else .missing
  writable := fun p => p != "/ro/report.log"

example : (create exWorld (some "a.log") none).map (·.installed) = .ok (.fromFile 1) := by
  decide +kernel

/-- A missing `config_path` selects the defaults although `LOG_CFG` names a valid file. -/
example : (create exWorld none (some "typo.yml")).map (·.installed) =
    .ok (.default "/work/report.log") := by decide +kernel

example : (create exWorld (some "a.log") (some "typo.yml")).map (·.installed) =
    .ok (.default "a.log") := by decide +kernel

/-- In a read-only directory, creating a Reporter raises. -/
example : (create { exWorld with cwd := "/ro", logCfg := none } none none).map (·.installed) =
    .error .valueError := by decide +kernel

end PySwarms.Rep
