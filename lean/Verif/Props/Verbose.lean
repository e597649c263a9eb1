import Verif.Lemmas.Verbose
import Verif.Props.Best
import Verif.Examples

/-! # C117: what optimize reports -/

set_option linter.unusedSectionVars false

namespace PySwarms.Say

variable {n d : Nat} {K : Type} [Field K] [LinearOrder K] [IsStrictOrderedRing K] [Transc K]
  [FloorRing K]

/-! ## Specification -/

/-- The values the postfix of the progress bar is set to, in order. -/
def postfixes (o : List (Out d K)) : List (XR K) :=
  o.filterMap fun
    | .postfix c => some c
    | _ => none

/-! ## C117 -/

/-- `verbose` influences neither the result, nor the exception, nor the state of the optimizer
afterwards: with both values these are those of `optimize`. -/
theorem C117_verbose (verbose : Bool) (cfg : Config n d K)
    (ev : Nat → Mat n d K → Except Err (Costs n K)) (iters : Nat) (nproc : Option Nat)
    (env : Nat → Draw n d K) (s : Opt n d K) :
    (optimizeV verbose cfg ev iters nproc env s).2 = optimize cfg ev iters nproc env s := by
  unfold optimizeV optimize
  dsimp only
  split
  · rfl
  · have h := loopV_snd verbose cfg ev env iters iters 0 []
      { prepare cfg s with openPools := s.openPools + (if nproc.isSome then 1 else 0) }
    rw [← h]
    rcases loopV verbose cfg ev env iters iters 0 []
      { prepare cfg s with openPools := s.openPools + (if nproc.isSome then 1 else 0) } with
      ⟨o, s1, _ | _⟩
    · rfl
    · dsimp only
      rcases finish s1 with _ | r <;> rfl

/-- Everything a call with `verbose=True` writes, however it ends: the two first messages; the
progress bar (unless the pool cannot be created) with `iters` as its total; as postfixes, one after
the other, exactly the values the call appends to `cost_history`; and, exactly if the call returns,
the last message with the values returned.  If it returns there are as many postfixes as evaluations
of the swarm. -/
theorem C117_output (cfg : Config n d K) (ev : Nat → Mat n d K → Except Err (Costs n K))
    (iters : Nat) (nproc : Option Nat) (env : Nat → Draw n d K) (s : Opt n d K) :
    ∃ posts, (optimize cfg ev iters nproc env s).1.costHistory = s.costHistory ++ posts ∧
      (∀ v, (optimize cfg ev iters nproc env s).2 = .ok v →
        (optimize cfg ev iters nproc env s).1.evals.length = s.evals.length + posts.length) ∧
      (optimizeV true cfg ev iters nproc env s).1 =
        [.log 10 .args, .log 20 (.start iters cfg.options)] ++
        (if nproc = some 0 then [] else [.bar iters]) ++ posts.map .postfix ++
        (match (optimize cfg ev iters nproc env s).2 with
          | .ok (c, p) => [.log 20 (.finished c p)]
          | .error _ => []) := by
  rw [← C117_verbose true]
  unfold optimizeV
  dsimp only
  split
  · exact ⟨[], (List.append_nil _).symm, fun v h => (by cases h), rfl⟩
  · obtain ⟨posts, h1, h2, h3⟩ := loopV_out cfg ev env iters iters 0 []
      { prepare cfg s with openPools := s.openPools + (if nproc.isSome then 1 else 0) }
    rcases hl : loopV true cfg ev env iters iters 0 []
      { prepare cfg s with openPools := s.openPools + (if nproc.isSome then 1 else 0) } with
      ⟨o, s1, _ | _⟩ <;> rw [hl] at h1 h2 h3
    · exact ⟨posts, h2, fun v h => (by cases h), by simp [← h1, DEBUG, logLevel, INFO]⟩
    · dsimp only at h1 h2 h3 ⊢
      rcases finish s1 with _ | r
      · exact ⟨posts, h2, fun v h => (by cases h), by simp [← h1, DEBUG, logLevel, INFO]⟩
      · exact ⟨posts, h2, fun _ _ => h3 rfl, by simp [← h1, DEBUG, logLevel, INFO]⟩

/-- If the call returns after at least one iteration, the last postfix shown is the cost returned. -/
theorem C117_last (cfg : Config n d K) (ev : Nat → Mat n d K → Except Err (Costs n K))
    (iters : Nat) (hi : 0 < iters) (nproc : Option Nat) (env : Nat → Draw n d K) (s s' : Opt n d K)
    (c : XR K) (p : Vec d K) (ho : optimize cfg ev iters nproc env s = (s', .ok (c, p))) :
    ∃ posts, s'.costHistory = s.costHistory ++ posts ∧ posts.getLast? = some c ∧
      (optimizeV true cfg ev iters nproc env s).1 =
        [.log 10 .args, .log 20 (.start iters cfg.options), .bar iters] ++ posts.map .postfix ++
        [.log 20 (.finished c p)] := by
  obtain ⟨posts, h1, h3, h2⟩ := C117_output cfg ev iters nproc env s
  rw [ho] at h1 h2 h3
  have hnp : nproc ≠ some 0 := by
    rintro rfl
    unfold optimize at ho
    simp at ho
  rw [if_neg hnp] at h2
  refine ⟨posts, h1, ?_, by simpa using h2⟩
  obtain ⟨s1, hloop, hs', hb, -⟩ := optimize_ok cfg ev iters nproc env s s' c p ho
  obtain ⟨j, t0, sw, E, v, -, -, -, hev, -, hlast⟩ :=
    loop_last cfg ev env iters iters 0 hi [] _ s1 hloop
  have he : s'.evals = s1.evals := by rw [hs']
  have hh : s'.costHistory = s1.costHistory := by rw [hs']
  have h0 : (startState cfg nproc s).evals = s.evals := rfl
  have hne : posts ≠ [] := by
    rintro rfl
    have hlen := h3 _ rfl
    dsimp only at hlen
    rw [he, hev, h0] at hlen
    simp at hlen
  have hc : s1.swarm.bestCostVal = c := by simp [Swarm.bestCostVal, hb]
  rw [← hh, h1, hc, List.getLast?_append_of_ne_nil _ hne] at hlast
  exact hlast

/-- With the Star topology each value shown is the lowest cost evaluated since the last reset. -/
theorem C117_star (hn : 0 < n) (cfg : Config n d K) (hk : cfg.kind.isStar)
    (ev : Nat → Mat n d K → Except Err (Costs n K)) (iters : Nat) (nproc : Option Nat)
    (env : Nat → Draw n d K) (s : Opt n d K) (hr : Reachable cfg s) (t : Nat)
    (ht : t < (postfixes (optimizeV true cfg ev iters nproc env s).1).length) :
    IsMinOf (postfixes (optimizeV true cfg ev iters nproc env s).1)[t] (allCosts
      ((optimize cfg ev iters nproc env s).1.evals.take (s.evals.length + t + 1))) := by
  obtain ⟨posts, h1, -, h2⟩ := C117_output cfg ev iters nproc env s
  have hp : postfixes (optimizeV true cfg ev iters nproc env s).1 = posts := by
    rw [h2]
    unfold postfixes
    rw [List.filterMap_append, List.filterMap_append, List.filterMap_append]
    have ha : ((if nproc = some 0 then [] else [.bar iters] : List (Out d K)).filterMap fun
        | .postfix c => some c
        | _ => none) = [] := by split <;> rfl
    have hb : ∀ x : Except Err (XR K × Vec d K), ((match x with
        | .ok (c, p) => [.log 20 (.finished c p)]
        | .error _ => [] : List (Out d K)).filterMap fun
        | .postfix c => some c
        | _ => none) = [] := by
      intro x; rcases x with _ | ⟨c', p'⟩ <;> rfl
    have hc : ∀ l : List (XR K), ((l.map .postfix : List (Out d K)).filterMap fun
        | .postfix c => some c
        | _ => none) = l := by
      intro l
      induction l with
      | nil => rfl
      | cons a l ih => rw [List.map_cons, List.filterMap_cons, ih]
    rw [ha, hb, hc]
    simp
  have hr' : Reachable cfg (optimize cfg ev iters nproc env s).1 := by
    obtain ⟨r1, r2, s0, ops, hc, rfl⟩ := hr
    exact ⟨r1, r2, s0, ops ++ [.optimize ev iters nproc env], hc, by simp [runOps, stepOp]⟩
  have hl := (C04_cost_history_running_min hn cfg hk s hr).1
  simp only [hp] at ht ⊢
  have hmin := (C04_cost_history_running_min hn cfg hk _ hr').2 (s.costHistory.length + t)
    (by rw [h1, List.length_append]; omega)
  simpa [h1, hl, List.getElem_append_right] using hmin

/-- With `verbose=False` no progress bar is shown, and the only record that can reach a handler is
the DEBUG message, whatever the level of the logger: level 0 is never enabled. -/
theorem C117_quiet (cfg : Config n d K) (ev : Nat → Mat n d K → Except Err (Costs n K))
    (iters : Nat) (nproc : Option Nat) (env : Nat → Draw n d K) (s : Opt n d K) (disable level : Nat) :
    (∀ o ∈ (optimizeV false cfg ev iters nproc env s).1, ∃ lvl m, o = .log lvl m) ∧
    records disable level (optimizeV false cfg ev iters nproc env s).1 =
      if disable < 10 ∧ level ≤ 10 then [(10, .args)] else [] := by
  have h : ∃ rest : List (Msg d K), (optimizeV false cfg ev iters nproc env s).1 =
      .log 10 .args :: rest.map (.log 0) := by
    unfold optimizeV
    dsimp only
    split
    · exact ⟨[_], rfl⟩
    · have hq := loopV_quiet cfg ev env iters iters 0 []
        { prepare cfg s with openPools := s.openPools + (if nproc.isSome then 1 else 0) }
      rcases hl : loopV false cfg ev env iters iters 0 []
        { prepare cfg s with openPools := s.openPools + (if nproc.isSome then 1 else 0) } with
        ⟨o, s1, _ | _⟩ <;> rw [hl] at hq <;> dsimp only at hq ⊢ <;> rw [hq]
      · exact ⟨[_], rfl⟩
      · rcases finish s1 with _ | r
        · exact ⟨[_], rfl⟩
        · exact ⟨[_, _], rfl⟩
  obtain ⟨rest, h⟩ := h
  rw [h]
  constructor
  · intro o ho
    rcases List.mem_cons.1 ho with rfl | ho
    · exact ⟨_, _, rfl⟩
    · obtain ⟨m, -, rfl⟩ := List.mem_map.1 ho
      exact ⟨_, _, rfl⟩
  · have h0 : ∀ l : List (Msg d K), records disable level (l.map (.log 0)) = [] := by
      intro l
      induction l with
      | nil => rfl
      | cons a l ih =>
        unfold records at ih ⊢
        rw [List.map_cons, List.filterMap_cons]
        simp [enabledFor]
    unfold records at h0 ⊢
    rw [List.filterMap_cons, h0]
    simp only [enabledFor]
    by_cases h1 : disable < 10 <;> by_cases h2 : level ≤ 10 <;> simp [h1, h2]

/-- With `verbose=True`, a logger at INFO level and logging not disabled (the default), the records
are the start message and, exactly if the call returns, the final message with the returned values. -/
theorem C117_records (cfg : Config n d K) (ev : Nat → Mat n d K → Except Err (Costs n K))
    (iters : Nat) (nproc : Option Nat) (env : Nat → Draw n d K) (s : Opt n d K) (disable level : Nat)
    (hd : disable < 20) (hl : level ≤ 20) :
    records disable level (optimizeV true cfg ev iters nproc env s).1 =
      (if disable < 10 ∧ level ≤ 10 then [(10, .args)] else []) ++
      (20, .start iters cfg.options) ::
        (match (optimize cfg ev iters nproc env s).2 with
          | .ok (c, p) => [(20, .finished c p)]
          | .error _ => []) := by
  obtain ⟨posts, -, -, h⟩ := C117_output cfg ev iters nproc env s
  rw [h]
  have hp : ∀ l : List (XR K), records (d := d) disable level (l.map .postfix) = [] := by
    intro l
    induction l with
    | nil => rfl
    | cons a l ih => unfold records at ih ⊢; rw [List.map_cons, List.filterMap_cons]; exact ih
  have happ : ∀ a b : List (Out d K), records disable level (a ++ b) =
      records disable level a ++ records disable level b := by
    intro a b; unfold records; rw [List.filterMap_append]
  have h20 : enabledFor disable level 20 = true := by
    simp only [enabledFor, Bool.and_eq_true, decide_eq_true_eq]; omega
  have h10 : enabledFor disable level 10 = decide (disable < 10 ∧ level ≤ 10) := by
    simp only [enabledFor]
    by_cases h1 : disable < 10 <;> by_cases h2 : level ≤ 10 <;> simp [h1, h2]
  rw [happ, happ, happ, hp]
  have hbar : records (d := d) (K := K) disable level (if nproc = some 0 then [] else [.bar iters]) =
      [] := by
    split <;> rfl
  rw [hbar]
  have hfirst : records (d := d) disable level
      [.log 10 .args, .log 20 (.start iters cfg.options)] =
      (if disable < 10 ∧ level ≤ 10 then [(10, .args)] else []) ++ [(20, .start iters cfg.options)] := by
    unfold records
    simp only [List.filterMap_cons, List.filterMap_nil, h20, h10]
    by_cases hh : disable < 10 ∧ level ≤ 10 <;> simp [hh]
  rw [hfirst]
  rcases (optimize cfg ev iters nproc env s).2 with _ | ⟨c, p⟩
  · simp [records]
  · simp [records, h20]

/-! ## Examples -/

/-- The output of two iterations of a GlobalBestPSO with two particles, as numbers. -/
def shown (verbose : Bool) (ev : Nat → Mat 2 1 ℚ → Except Err (Costs 2 ℚ)) : List (String × ℚ) :=
  match construct (Ex.gcfg 2 1) (Ex.init 2 1) (Ex.init 2 1) with
  | .ok s => (optimizeV verbose (Ex.gcfg 2 1) ev 2 none (fun _ => Ex.draw 2 1) s).1.map fun
    | .log l .args => ("args", l)
    | .log l (.start _ _) => ("start", l)
    | .log _ (.finished (.fin c) _) => ("finished", c)
    | .log _ (.finished _ _) => ("finished without a number", 0)
    | .bar k => ("bar", k)
    | .postfix (.fin c) => ("postfix", c)
    | .postfix _ => ("postfix without a number", 0)
  | _ => []

/-- Non-vacuity: an objective that improves; one that raises in the second iteration; a silent
call. -/
example : shown true (fun k _ => .ok fun _ => .fin (7 - k)) =
      [("args", 10), ("start", 20), ("bar", 2), ("postfix", 7), ("postfix", 6), ("finished", 6)] ∧
    shown true (fun k _ => if k = 1 then .error (.user 3) else .ok fun _ => .fin 7) =
      [("args", 10), ("start", 20), ("bar", 2), ("postfix", 7)] ∧
    shown false (fun k _ => .ok fun _ => .fin (7 - k)) =
      [("args", 10), ("start", 0), ("finished", 6)] := by
  decide +kernel

end PySwarms.Say
