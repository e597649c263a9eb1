import Verif.Props.BlackBox

/-!
# A logged run can be replayed, and an interrupted one recovered (C134)
-/

set_option linter.unusedSectionVars false

namespace PySwarms

variable {n d : Nat} {K : Type} [Field K] [LinearOrder K] [IsStrictOrderedRing K] [Transc K]
  [FloorRing K]

/-- What an optimize call has logged: the evaluations it added to those made before. -/
def callLog (cfg : Config n d K) (ev : Nat → Mat n d K → Except Err (Costs n K)) (iters : Nat)
    (nproc : Option Nat) (env : Nat → Draw n d K) (s : Opt n d K) :
    List (Mat n d K × Costs n K) :=
  (optimize cfg ev iters nproc env s).1.evals.drop s.evals.length

/-- An objective that answers its `t`-th call with the `t`-th costs of a log, without looking at the
positions, and calls `ev` when the log is exhausted. -/
def replay (log : List (Mat n d K × Costs n K)) (ev : Nat → Mat n d K → Except Err (Costs n K)) :
    Nat → Mat n d K → Except Err (Costs n K) :=
  fun t x => match log[t]? with
    | some e => .ok e.2
    | none => ev t x

theorem loop_congr_from (cfg : Config n d K) (ev ev' : Nat → Mat n d K → Except Err (Costs n K))
    (env : Nat → Draw n d K) (iters m i : Nat) (q : List Bool) (s : Opt n d K)
    (h : ∀ t, i ≤ t → ∀ x, ev' t x = ev t x) :
    loop cfg ev' env iters m i q s = loop cfg ev env iters m i q s := by
  induction m generalizing i q s with
  | zero => rfl
  | succ m ih =>
    rw [loop, loop, show ev' i = ev i from funext (h i le_rfl)]
    generalize iterate cfg (ev i) (env i) iters i q s = o
    obtain ⟨s1, e | u⟩ := o
    · rfl
    · cases u with
      | stop => rfl
      | «continue» q' => exact ih (i + 1) q' s1 fun t ht => h t (by omega)

theorem loop_replay (cfg : Config n d K) (ev ev2 g : Nat → Mat n d K → Except Err (Costs n K))
    (h2 : ∀ t x c, ev t x = .ok c → ev2 t x = .ok c)
    (hg : (∀ t x, ∃ c, ev t x = .ok c) ∨ g = ev2)
    (env : Nat → Draw n d K) (iters : Nat) (log : List (Mat n d K × Costs n K)) (m i : Nat)
    (q : List Bool) (s : Opt n d K)
    (hlog : log.drop i = (loop cfg ev env iters m i q s).1.evals.drop s.evals.length) :
    loop cfg (replay log g) env iters m i q s = loop cfg ev2 env iters m i q s := by
  induction m generalizing i q s with
  | zero => rfl
  | succ m ih =>
    cases hev : ev i s.swarm.position with
    | error e =>
      rcases hg with hg | rfl
      · obtain ⟨c, hc⟩ := hg i s.swarm.position
        rw [hev] at hc
        cases hc
      · have hl : loop cfg ev env iters (m + 1) i q s = (s, .error e) := by
          rw [loop]
          have : iterate cfg (ev i) (env i) iters i q s = (s, .error e) := by
            unfold iterate
            rw [hev]
          rw [this]
        rw [hl, List.drop_length] at hlog
        refine loop_congr_from cfg _ _ env iters (m + 1) i q s fun t ht x => ?_
        unfold replay
        have : log[t]? = none := by
          rw [List.getElem?_eq_none_iff]
          have := congrArg List.length hlog
          rw [List.length_drop, List.length_nil] at this
          omega
        rw [this]
    | ok c =>
      have he : (iterate cfg (ev i) (env i) iters i q s).1.evals =
          s.evals ++ [(s.swarm.position, c)] := iterate_evals_eq hev
      have hp : (iterate cfg (ev i) (env i) iters i q s).1.evals <+:
          (loop cfg ev env iters (m + 1) i q s).1.evals := by
        rw [loop]
        generalize iterate cfg (ev i) (env i) iters i q s = o
        obtain ⟨s1, e | u⟩ := o
        · exact List.prefix_refl _
        · cases u
          · exact List.prefix_refl _
          · exact loop_evals_prefix _ _ _ _ _ _ _ _
      obtain ⟨E, hE⟩ := hp
      have hd : log.drop i = (s.swarm.position, c) :: E := by
        rw [hlog, ← hE, he, List.append_assoc, List.drop_left]
        rfl
      have hi : log[i]? = some (s.swarm.position, c) := by
        have := congrArg (fun l : List (Mat n d K × Costs n K) => l[0]?) hd
        simpa [List.getElem?_drop] using this
      have hr : replay log g i s.swarm.position = .ok c := by
        unfold replay
        rw [hi]
      have hit : ∀ ev' : Mat n d K → Except Err (Costs n K), ev' s.swarm.position = .ok c →
          iterate cfg ev' (env i) iters i q s = iterate cfg (ev i) (env i) iters i q s := by
        intro ev' h
        unfold iterate
        rw [h, hev]
      have hnext : log.drop (i + 1) = (loop cfg ev env iters (m + 1) i q s).1.evals.drop
          (iterate cfg (ev i) (env i) iters i q s).1.evals.length := by
        rw [← List.drop_drop, hlog, he, List.length_append, ← List.drop_drop]
        rfl
      rw [loop] at hnext
      rw [loop, loop, hit _ hr, hit _ (h2 i _ c hev)]
      revert hnext
      generalize iterate cfg (ev i) (env i) iters i q s = o
      obtain ⟨s1, e | u⟩ := o
      · intro _; rfl
      · cases u with
        | stop => intro _; rfl
        | «continue» q' => exact fun hnext => ih (i + 1) q' s1 hnext

theorem optimize_replay (cfg : Config n d K) (ev ev2 g : Nat → Mat n d K → Except Err (Costs n K))
    (h2 : ∀ t x c, ev t x = .ok c → ev2 t x = .ok c)
    (hg : (∀ t x, ∃ c, ev t x = .ok c) ∨ g = ev2) (iters : Nat) (nproc : Option Nat)
    (env : Nat → Draw n d K) (s : Opt n d K) :
    optimize cfg (replay (callLog cfg ev iters nproc env s) g) iters nproc env s =
      optimize cfg ev2 iters nproc env s := by
  by_cases hp : nproc = some 0
  · unfold optimize
    rw [if_pos hp, if_pos hp]
  · have hl := loop_replay cfg ev ev2 g h2 hg env iters (callLog cfg ev iters nproc env s) iters 0 []
      (startState cfg nproc s) (by
      unfold callLog
      rw [List.drop_zero]
      have hc := optimize_cases cfg ev iters nproc env s
      generalize (optimize cfg ev iters nproc env s).1 = s' at hc ⊢
      generalize (optimize cfg ev iters nproc env s).2 = o at hc
      cases hc with
      | badPool h => exact absurd h hp
      | loopError s1 e _ hl => rw [hl]; rfl
      | finishError s1 e _ hl _ => rw [hl]; rfl
      | done s1 r _ hl _ => rw [hl]; rfl)
    unfold optimize
    unfold startState at hl
    dsimp only at hl ⊢
    rw [hl]

/-- **C134** (replay).  From the costs logged by a call with an objective that does not raise, the
call can be repeated without the objective: same random numbers, same result, same optimizer. -/
theorem C134_replay (cfg : Config n d K) (ev g : Nat → Mat n d K → Except Err (Costs n K))
    (hev : ∀ t x, ∃ c, ev t x = .ok c) (iters : Nat) (nproc : Option Nat) (env : Nat → Draw n d K)
    (s : Opt n d K) :
    optimize cfg (replay (callLog cfg ev iters nproc env s) g) iters nproc env s =
      optimize cfg ev iters nproc env s :=
  optimize_replay cfg ev ev g (fun _ _ _ h => h) (.inl hev) iters nproc env s

/-- **C134** (recovery).  A call was cut short because the objective raised at some evaluation.  Let
`ev2` be the objective in working order: it gives the same costs wherever `ev` gave any.  Starting again
from the same state with the same random numbers, answering from the log first and calling `ev2` only
when the log is exhausted, gives exactly the call that would have happened without the failure. -/
theorem C134_recovery (cfg : Config n d K) (ev ev2 : Nat → Mat n d K → Except Err (Costs n K))
    (h2 : ∀ t x c, ev t x = .ok c → ev2 t x = .ok c) (iters : Nat) (nproc : Option Nat)
    (env : Nat → Draw n d K) (s : Opt n d K) :
    optimize cfg (replay (callLog cfg ev iters nproc env s) ev2) iters nproc env s =
      optimize cfg ev2 iters nproc env s :=
  optimize_replay cfg ev ev2 ev2 h2 (.inr rfl) iters nproc env s

/-- The sphere, on a machine that fails at the third evaluation. -/
def Ex.failing : Nat → Mat 2 2 ℚ → Except Err (Costs 2 ℚ) := fun t x =>
  if t = 2 then .error (.user 0) else Ex.sphere 2 2 t x

/-- Non-vacuity: the failing call raises after two logged evaluations, the healthy one returns. -/
example : (match construct (Ex.gcfg 2 2) (Ex.init 2 2) (Ex.init 2 2) with
    | .ok s =>
      (callLog (Ex.gcfg 2 2) Ex.failing 5 none (fun _ => Ex.draw 2 2) s).length == 2 &&
      (match (optimize (Ex.gcfg 2 2) Ex.failing 5 none (fun _ => Ex.draw 2 2) s).2 with
        | .error _ => true
        | .ok _ => false) &&
      (match (optimize (Ex.gcfg 2 2) (Ex.sphere 2 2) 5 none (fun _ => Ex.draw 2 2) s).2 with
        | .error _ => false
        | .ok _ => true)
    | .error _ => false) = true := by decide +kernel

/-- Non-vacuity: wherever the failing objective answers, it is the sphere. -/
example : ∀ t x c, Ex.failing t x = .ok c → Ex.sphere 2 2 t x = .ok c := by
  intro t x c h
  unfold Ex.failing at h
  split at h
  · cases h
  · exact h

end PySwarms
